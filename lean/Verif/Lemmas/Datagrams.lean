import Verif.Spec.Datagrams
import Verif.Lemmas.ChatEsp
import Verif.Lemmas.Net

/-! Datagrams and the Espressif driver: the invariant. -/

namespace Verif

open Spec

theorem Ring.size_pushes (r : Ring Byte) (bs : List Byte) : (bs.foldl Ring.push r).size = r.size := by
  induction bs generalizing r with
  | nil => rfl
  | cons c bs ih => rw [List.foldl_cons, ih, Ring.size_push]

namespace Espressif

/-- What does not change. `rq`: content of the serial receive buffer; `got`: datagrams that were received; `hd`: what the
application has read. -/
structure Base (p : Platform) (rx tx cap : Nat) (hd : List Byte) (d : D) (rq : List Byte) (got : List (List Byte)) : Prop where
  isOpen : d.isOpen = true
  reset : d.resetPending = false
  wait : d.wait = none
  rep : d.rep = .okReply
  disc : d.disconnectPending = false
  ip : d.ipConnected = true
  wbuf : d.wbuf.bytesAvailable = 0
  rssi : d.rssi ≠ int16Max
  mac : ¬ (macMarked p d.ext.mac = true ∧ d.ext.mac.get 0 = 0)
  typ : d.typ ≠ .tcp
  rcv : d.bytesToReceive = 0
  line : Dev.LineOk d
  ser : Ser.Calm d.ser rq rx tx
  free : 20 ≤ d.ser.txFree
  cs : d.cs = .connected ∨ d.cs = .receiving
  hand : handed d.trace = hd
  rbuf : ∃ q, Ring.Rep d.rbuf q ∧ hd ++ q = got.flatten
  size : d.rbuf.size = cap

/-- Between two datagrams: the part `u` of the next line has been read. -/
structure Lines (d : D) (u : List Byte) : Prop where
  lineRead : d.lineRead = true
  rd : d.bytesToRead = 0
  snd : d.snd = .connected ∨ d.snd = .receiving
  fill : d.lbFill = u.length
  part : d.line.cells.take u.length = u

/-- The data of a datagram is next. -/
structure Block (d : D) (b : List Byte) : Prop where
  lineRead : d.lineRead = false
  rd : d.bytesToRead = b.length
  ne : b ≠ []
  snd : (d.snd = .connected ∧ d.dataPending = true) ∨ d.snd = .receiving
  fill : d.lbFill = 0

/-- Driver and modem. `items`: what is to be read; `rq`: in the receive buffer, `air`: on its way. -/
inductive Mode (rx : Nat) (d : D) (rq air : List Byte) (got came : List (List Byte)) : Prop
  | lines (u : List Byte) (items : List Mail) (h : Lines d u) (ok : ∀ m ∈ items, m.Ok meaningEsp rx)
      (text : u ++ rq ++ air = items.flatMap Mail.text) (part : ∀ m ∈ items.head?, u.length < m.head.length)
      (data : got ++ items.flatMap Mail.data = came)
  | block (b : List Byte) (items : List Mail) (h : Block d b) (fits : b.length ≤ rx) (ok : ∀ m ∈ items, m.Ok meaningEsp rx)
      (text : rq ++ air = b ++ items.flatMap Mail.text) (data : got ++ b :: items.flatMap Mail.data = came)

variable {p : Platform} {rx tx cap : Nat} {hd : List Byte} {d : D} {rq air : List Byte} {got came : List (List Byte)}

theorem Base.askSpace (h : Base p rx tx cap hd d rq got) : d.askSpace = d := by
  unfold Dev.askSpace; rw [h.ser.spaceAvailable]

theorem Base.proceed (h : Base p rx tx cap hd d rq got) : proceed p d = act d := by
  unfold Espressif.proceed
  have : d.serSpace = d.ser.txFree := by unfold Dev.serSpace; rw [h.ser.spaceAvailable]
  rw [if_neg (by simp [h.wait, h.rep]), this, if_neg (by have := h.free; omega), h.askSpace]
  unfold sendNext
  rw [if_neg (fun x => h.rssi x.1), if_neg (fun x => h.mac ⟨x.1, x.2.1⟩)]

/-- Changes of the state machine that keep the rest. -/
theorem Base.keep (h : Base p rx tx cap hd d rq got) (s : Snd) (c : ConnState) (dp : Bool) (hc : c = .connected ∨ c = .receiving) :
    Base p rx tx cap hd { d with snd := s, cs := c, dataPending := dp } rq got :=
  ⟨h.isOpen, h.reset, h.wait, h.rep, h.disc, h.ip, h.wbuf, h.rssi, h.mac, h.typ, h.rcv, ⟨h.line.len, h.line.fill, h.line.oob⟩, h.ser, h.free, hc,
    h.hand, h.rbuf, h.size⟩

theorem act_lines (h : Base p rx tx cap hd d rq got) {u : List Byte} (hl : Lines d u) :
    Base p rx tx cap hd (act d) rq got ∧ Lines (act d) u := by
  have key : ∀ (s : Snd) (c : ConnState) (dp : Bool), (c = .connected ∨ c = .receiving) → (s = .connected ∨ s = .receiving) →
      act d = { d with snd := s, cs := c, dataPending := dp } → Base p rx tx cap hd (act d) rq got ∧ Lines (act d) u := by
    intro s c dp hc hs e
    rw [e]
    exact ⟨h.keep s c dp hc, hl.lineRead, hl.rd, hs, hl.fill, hl.part⟩
  rcases hl.snd with hs | hs
  · unfold act at key ⊢
    rw [hs] at key ⊢
    dsimp only at key ⊢
    unfold actConnected at key ⊢
    rw [if_neg (by simp [h.wbuf])] at key ⊢
    by_cases hd : d.dataPending = true
    · rw [if_pos hd] at key ⊢
      refine key .receiving .receiving false (.inr rfl) (.inr rfl) ?_
      rw [if_neg h.typ]
    · rw [if_neg hd, if_pos h.ip, if_neg (by simp [h.disc])] at key ⊢
      refine key .connected .connected d.dataPending (.inl rfl) (.inl rfl) ?_
      rw [← hs]
  · unfold act at key ⊢
    rw [hs] at key ⊢
    dsimp only at key ⊢
    unfold actReceiving at key ⊢
    rw [if_neg (by rw [hl.rd]; omega), if_neg (by rw [h.rcv]; omega)] at key ⊢
    exact key .connected d.cs d.dataPending h.cs (.inl rfl) rfl

/-- The state after a datagram was received. -/
theorem act_block (h : Base p rx tx cap hd d rq got) {b : List Byte} (hl : Block d b) :
    (d.snd = .connected ∧ Base p rx tx cap hd (act d) rq got ∧ Block (act d) b ∧ (act d).snd = .receiving) ∨
    (d.snd = .receiving ∧ rq.length < b.length ∧ Base p rx tx cap hd (act d) rq got ∧ Block (act d) b ∧ (act d).snd = .receiving) ∨
    (d.snd = .receiving ∧ b.length ≤ rq.length ∧ ∀ y, rq = b ++ y → got.flatten.length + b.length ≤ hd.length + cap →
      Base p rx tx cap hd (act d) y (got ++ [b]) ∧ Lines (act d) []) := by
  rcases hl.snd with ⟨hs, hd⟩ | hs
  · left
    refine ⟨hs, ?_⟩
    unfold act
    rw [hs]
    dsimp only
    unfold actConnected
    rw [if_neg (by simp [h.wbuf]), if_pos hd, if_neg h.typ]
    exact ⟨h.keep _ _ _ (.inr rfl), ⟨hl.lineRead, hl.rd, hl.ne, .inr rfl, hl.fill⟩, rfl⟩
  · right
    have ea : act d = d.receive.1 := by
      unfold act
      rw [hs]
      dsimp only
      unfold actReceiving
      rw [if_pos (by rw [hl.rd]; exact List.length_pos_iff.mpr hl.ne)]
      dsimp only
      rw [if_neg]
      intro x
      have : d.receive.1.typ = d.typ := by
        unfold Dev.receive; split <;> rfl
      exact h.typ (this ▸ x.2)
    have eq : d.askAvail = d := by unfold Dev.askAvail; rw [h.ser.bytesAvailable]
    have en : d.serAvail = rq.length := by unfold Dev.serAvail; rw [h.ser.bytesAvailable]
    by_cases hq : rq.length < b.length
    · left
      have : d.receive.1 = d := by
        unfold Dev.receive
        rw [if_neg (by rw [en, hl.rd]; omega), eq]
      rw [ea, this]
      exact ⟨hs, hq, h, hl, hs⟩
    · right
      refine ⟨hs, by omega, ?_⟩
      intro y hy hroom
      subst hy
      have hrl := h.ser.readLoop (l := b) (rq := y)
      obtain ⟨c1, c2, c3, c4⟩ := hrl
      have : d.receive.1 = { d with ser := (d.ser.readLoop b.length).1, rbuf := b.foldl Ring.push d.rbuf, bytesToRead := 0, lineRead := true, trace := d.trace ++ [.data b] } := by
        unfold Dev.receive
        rw [if_pos (by rw [en, hl.rd]; omega), eq]
        simp only [hl.rd, c2]
      rw [ea, this]
      obtain ⟨q, r1, r2⟩ := h.rbuf
      have hlen := congrArg List.length r2
      rw [List.length_append] at hlen
      have ht : handed (d.trace ++ [.data b]) = handed d.trace := by
        rw [Dev.handed_append]; simp [handed]
      refine ⟨⟨h.isOpen, h.reset, h.wait, h.rep, h.disc, h.ip, h.wbuf, h.rssi, h.mac, h.typ, h.rcv, ⟨h.line.len, h.line.fill, h.line.oob⟩, c1, ?_, h.cs,
        ht.trans h.hand, ⟨q ++ b, rep_pushes r1 b (by rw [h.size]; omega), ?_⟩, ?_⟩, ⟨rfl, rfl, .inr hs, hl.fill, rfl⟩⟩
      · show 20 ≤ Ser.txFree _
        unfold Ser.txFree
        rw [c3]; exact h.free
      · rw [← List.append_assoc, r2]; simp
      · show (b.foldl Ring.push d.rbuf).size = cap
        rw [Ring.size_pushes]; exact h.size

/-! ### Lines -/

theorem Mail.head_form {m : Mail} (h : m.Ok meaningEsp rx) :
    ∃ t z, m.head = t ++ [z] ∧ t.length + 1 ≤ 60 ∧ nl ∉ t ∧ gt ∉ t ∧ (58 : Byte) ∉ t ∧ (z = nl ∨ z = 58) := by
  cases m with
  | noise l =>
    obtain ⟨⟨h1, t, e, h2, h3, -⟩, -, h5⟩ := h
    refine ⟨t, nl, e, ?_, h2, h3, fun x => h5 (by rw [e]; simp [x]), .inl rfl⟩
    rw [e] at h1; simpa using h1
  | datagram b =>
    obtain ⟨-, -, h3⟩ := h
    have hl : (decimals b.length).length ≤ 10 := decimals_length (by omega) (by omega)
    have hd := decimals_digits b.length
    have hn : ∀ c : Byte, isDigit c = false → c ∉ b!"+IPD," → c ∉ b!"+IPD," ++ decimals b.length := by
      intro c hc hi hm
      rcases List.mem_append.mp hm with x | x
      · exact hi x
      · have := hd c x; rw [hc] at this; exact Bool.noConfusion this
    refine ⟨b!"+IPD," ++ decimals b.length, 58, rfl, ?_, hn _ (by decide) (by decide), hn _ (by decide) (by decide), hn _ (by decide) (by decide), .inr rfl⟩
    rw [List.length_append, show (b!"+IPD,").length = 5 from rfl]; omega

theorem stop_none {t : ConnType} {m : Mem} {k : Nat} {c : Byte} (h1 : c ≠ nl) (h2 : c ≠ gt) (h3 : c ≠ 58) (hk : k < 60) :
    lineStop t .okReply m k c = none := by
  unfold lineStop
  rw [if_neg, if_neg]
  · intro x; exact absurd x.1 (by decide)
  · rintro (x | x | x | x)
    · exact h1 x
    · exact h2 x
    · exact h3 x.2.2.2.2
    · have : lineMax = 60 := rfl
      omega

theorem stop_some {t : ConnType} (ht : t ≠ .tcp) {m : Mem} {k : Nat} {c : Byte} (h : c = nl ∨ c = 58) :
    lineStop t .okReply m k c = some .okReply := by
  unfold lineStop
  rw [if_pos]
  rcases h with h | h
  · exact .inl h
  · exact .inr (.inr (.inl ⟨ht, by decide, by decide, by decide, h⟩))

/-- A part of a line is read. -/
theorem read_part (h : Base p rx tx cap hd d rq got) {u v : List Byte} (hl : Lines d u) {t : List Byte} (ht : u ++ rq ++ v = t)
    (hlen : (u ++ rq).length < 60) (h1 : nl ∉ t) (h2 : gt ∉ t) (h3 : (58 : Byte) ∉ t) :
    ∃ g, fillLineBuffer d = (g, false) ∧ Base p rx tx cap hd g [] got ∧ Lines g (u ++ rq) := by
  have hlm : lineMax = 60 := rfl
  have hf := hl.fill
  rw [List.length_append] at hlen
  obtain ⟨s, m, e, k1, k2, k3, k4, k5⟩ := Dev.fillLoop_more (lineStop d.typ d.rep) (lineMax - d.lbFill) h.ser d.line d.lbFill h.line.len
    (by omega) (by omega)
    (by
      intro m' a c b hab hm
      rw [h.rep]
      have hc : c ∈ t := by rw [← ht, hab]; simp
      have := congrArg List.length hab
      simp at this
      exact stop_none (fun x => h1 (x ▸ hc)) (fun x => h2 (x ▸ hc)) (fun x => h3 (x ▸ hc)) (by omega))
  refine ⟨{ d with ser := s, line := m, lbFill := d.lbFill + rq.length }, ?_, ?_, ?_⟩
  · unfold fillLineBuffer Dev.fillLine
    rw [if_pos hl.lineRead, e]
  · refine ⟨h.isOpen, h.reset, h.wait, h.rep, h.disc, h.ip, h.wbuf, h.rssi, h.mac, h.typ, h.rcv, ⟨k3, ?_, k4.trans h.line.oob⟩, k1, ?_, h.cs, h.hand, h.rbuf, h.size⟩
    · show d.lbFill + rq.length < lineMax; omega
    · show 20 ≤ Ser.txFree _
      unfold Ser.txFree
      rw [k2]; exact h.free
  · refine ⟨hl.lineRead, hl.rd, hl.snd, ?_, ?_⟩
    · show d.lbFill + rq.length = _; rw [List.length_append, hf]
    · show m.cells.take _ = _
      rw [List.length_append, ← hf, k5, hf, hl.part]

/-- A line is complete. -/
theorem read_line {u t y : List Byte} {z : Byte} (h : Base p rx tx cap hd d rq got) (hl : Lines d u) (hu : u ++ rq = t ++ z :: y)
    (hut : u.length ≤ t.length)
    (hlen : t.length + 1 ≤ 60) (h1 : nl ∉ t) (h2 : gt ∉ t) (h3 : (58 : Byte) ∉ t) (hz : z = nl ∨ z = 58) :
    ∃ g, fillLineBuffer d = (g, true) ∧ Base p rx tx cap hd g y got ∧ Lines g [] ∧ Dev.LineDone g (t ++ [z]) := by
  have hlm : lineMax = 60 := rfl
  have hf := hl.fill
  obtain ⟨v, rfl, hv⟩ : ∃ v, t = u ++ v ∧ rq = v ++ z :: y := by
    rcases List.append_eq_append_iff.mp hu with ⟨a, e1, e2⟩ | ⟨a, e1, e2⟩
    · exact ⟨a, e1, e2⟩
    · have : a = [] := by
        have := congrArg List.length e1
        rw [List.length_append] at this
        exact List.eq_nil_of_length_eq_zero (by omega)
      subst this
      exact ⟨[], by simpa using e1.symm, by simpa using e2.symm⟩
  subst hv
  rw [List.length_append] at hlen
  obtain ⟨s, m, e, k1, k2, k3, k4, k5, k6⟩ := Dev.fillLoop_text (lineStop d.typ d.rep) .okReply (lineMax - d.lbFill) h.ser d.line d.lbFill h.line.len
    (by omega) (by omega)
    (by
      intro m' a c b hab hm
      rw [h.rep]
      have hc : c ∈ u ++ v := by rw [hab]; simp
      have := congrArg List.length hab
      simp at this
      exact stop_none (fun x => h1 (x ▸ hc)) (fun x => h2 (x ▸ hc)) (fun x => h3 (x ▸ hc)) (by omega))
    (by
      intro m' hm
      rw [h.rep]
      exact stop_some h.typ hz)
  have e5 : m.cells.take (d.lbFill + v.length + 1) = u ++ v ++ [z] := by rw [k5, hf, hl.part]
  have elen : (u ++ v ++ [z]).length = d.lbFill + v.length + 1 := by simp [hf]; omega
  refine ⟨{ d with ser := s, line := m, lbFill := 0, rep := .okReply, trace := d.trace ++ [.line (u ++ v ++ [z])] }, ?_, ?_, ?_, ?_⟩
  · unfold fillLineBuffer Dev.fillLine
    rw [if_pos hl.lineRead, e]
    dsimp only
    rw [e5]
  · refine ⟨h.isOpen, h.reset, h.wait, rfl, h.disc, h.ip, h.wbuf, h.rssi, h.mac, h.typ, h.rcv, ⟨k3, (show 0 < lineMax by decide), k4.trans h.line.oob⟩, k1, ?_, h.cs, ?_, h.rbuf, h.size⟩
    · show 20 ≤ Ser.txFree _
      unfold Ser.txFree
      rw [k2]; exact h.free
    · show handed (d.trace ++ [_]) = _
      rw [Dev.handed_append]; simpa [handed] using h.hand
  · exact ⟨hl.lineRead, hl.rd, hl.snd, rfl, rfl⟩
  · exact ⟨by rw [elen]; exact e5, by rw [elen]; exact k6, rfl⟩

/-- A line without meaning. -/
theorem parse_noise {g : D} {l : List Byte} (h : Base p rx tx cap hd g rq got) (hx : Dev.LineDone g l) (hc : Clear meaningEsp l) :
    parseLine p g = (g, false) := by
  have c : ∀ w ∈ meaningEsp, ¬ w <+: l := hc
  refine (parseLine_eq (a := g) (isError_clear hx ?_) (sendFail_clear hx (c _ (by decide))) (parseWait_none h.wait) (parseReply_ok h.rep)).trans ?_
  · intro w hw
    exact c w (by unfold meaningEsp; simp [hw])
  · rw [checkState_clear hx]
    intro w hw
    refine c w ?_
    simp only [List.mem_cons, List.not_mem_nil, or_false] at hw
    rcases hw with rfl | rfl | rfl <;> decide

/-- A header. -/
theorem parse_header {g : D} {b : List Byte} (h : Base p rx tx cap hd g rq got) (hl : Lines g []) (hx : Dev.LineDone g (b!"+IPD," ++ decimals b.length ++ [58]))
    (hb2 : b.length < 2 ^ 31) :
    parseLine p g = ({ g with bytesToRead := b.length, lineRead := false, dataPending := true }, false) := by
  have c : ∀ w : List Byte, (∃ x r, w = x :: r ∧ x ≠ 43) → ¬ w <+: b!"+IPD," ++ decimals b.length ++ [58] := by
    rintro w ⟨x, r, rfl, hx⟩ hp
    obtain ⟨s, e⟩ := hp
    have := congrArg (fun l => l.headD 0) e
    simp at this
    exact hx this
  refine (parseLine_eq (a := g) (isError_clear hx ?_) (sendFail_clear hx (c _ ⟨_, _, rfl, by decide⟩)) (parseWait_none h.wait) (parseReply_ok h.rep)).trans ?_
  · intro w hw
    refine c w ?_
    simp only [errorsEsp, List.mem_cons, List.not_mem_nil, or_false] at hw
    rcases hw with rfl | rfl <;> exact ⟨_, _, rfl, by decide⟩
  · unfold checkState
    have hs : Snd.connected.idx ≤ g.snd.idx := by
      rcases hl.snd with x | x <;> rw [x] <;> decide
    have hi : strncmpEq g.line.cells b!"+IPD," 4 = true :=
      (show strncmpEq g.line.cells b!"+IPD," 4 = g.has b!"+IPD" from rfl).trans (hx.has_true (by decide) ⟨b!"," ++ decimals b.length ++ [58], by simp⟩)
    have hn : strtol p.long64 (g.line.drop 5) = b.length :=
      hx.strtol p.long64 b!"+IPD," [58] b.length rfl (by omega) (by decide)
    rw [if_pos hs, if_pos hi, hn, if_neg h.typ, hl.rd]
    have e1 : toInt (b.length : Int) = b.length := by
      unfold toInt wrapS; dsimp only; split <;> omega
    have e2 : addSize 0 (b.length : Int) = b.length := by
      unfold addSize toU64; omega
    simp only [e1, e2]

/-! ### `run()` -/

theorem Base.run (h : Base p rx tx cap hd d rq got) : run p d true = work p d := by
  unfold Espressif.run
  rw [if_neg (by simp [h.isOpen]), if_neg (by simp [h.reset])]

theorem work_same (h : Base p rx tx cap hd d rq got) {g : D} (h2 : Base p rx tx cap hd g air got) (e : fillLineBuffer d = (g, false)) :
    run p d true = act g := by
  rw [h.run]
  unfold work
  rw [e]
  dsimp only
  rw [if_neg (by simp), show flushIfDisconnecting g = g by unfold flushIfDisconnecting; rw [if_neg (by simp [h2.disc])], h2.proceed]

theorem work_line (h : Base p rx tx cap hd d rq got) {g e : D} (h2 : Base p rx tx cap hd e air got) (e1 : fillLineBuffer d = (g, true))
    (e2 : parseLine p g = (e, false)) : run p d true = act e := by
  rw [h.run]
  unfold work
  rw [e1]
  dsimp only
  rw [e2]
  simp [h2.proceed]

/-- Is a datagram announced, but not being received? -/
def pend (d : D) : Nat := if d.lineRead = false ∧ d.snd = .connected then 1 else 0

theorem pend_le (d : D) : pend d ≤ 1 := by unfold pend; split <;> omega
theorem pend_zero {d : D} (h : d.lineRead = true ∨ d.snd = .receiving) : pend d = 0 := by
  unfold pend; rw [if_neg]
  rintro ⟨h1, h2⟩
  rcases h with h | h
  · rw [h] at h1; exact Bool.noConfusion h1
  · rw [h] at h2; exact Snd.noConfusion h2
theorem pend_one {d : D} (h : d.lineRead = false) (h2 : d.snd = .connected) : pend d = 1 := by
  unfold pend; rw [if_pos ⟨h, h2⟩]

/-- The state machine, while a datagram is next. -/
theorem block_act (h : Base p rx tx cap hd d rq got) {b : List Byte} {items : List Mail} (hl : Block d b) (fits : b.length ≤ rx)
    (ok : ∀ m ∈ items, m.Ok meaningEsp rx)
    (text : rq ++ air = b ++ items.flatMap Mail.text) (data : got ++ b :: items.flatMap Mail.data = came)
    (hc : came.flatten.length ≤ hd.length + cap) :
    ∃ rq' got', Base p rx tx cap hd (act d) rq' got' ∧ Mode rx (act d) rq' air got' came ∧
      2 * rq'.length + pend (act d) ≤ 2 * rq.length + pend d ∧
      (b.length ≤ rq.length → 2 * rq'.length + pend (act d) < 2 * rq.length + pend d) := by
  rcases act_block h hl with ⟨h1, h2, h3, h4⟩ | ⟨h1, h2, h3, h4, h5⟩ | ⟨h1, h2, h3⟩
  · refine ⟨rq, got, h2, .block b items h3 fits ok text data, ?_, fun _ => ?_⟩ <;> rw [pend_zero (.inr h4), pend_one hl.lineRead h1] <;> omega
  · refine ⟨rq, got, h3, .block b items h4 fits ok text data, ?_, fun x => ?_⟩
    · rw [pend_zero (.inr h5), pend_zero (.inr h1)]; omega
    · omega
  · obtain ⟨y, hy, hy2⟩ : ∃ y, rq = b ++ y ∧ y ++ air = items.flatMap Mail.text := by
      rcases List.append_eq_append_iff.mp text with ⟨a, e1, e2⟩ | ⟨a, e1, e2⟩
      · have : a = [] := by
          have := congrArg List.length e1
          rw [List.length_append] at this
          exact List.eq_nil_of_length_eq_zero (by omega)
        subst this
        exact ⟨[], by simpa using e1.symm, by simpa using e2⟩
      · exact ⟨a, e1, e2.symm⟩
    obtain ⟨h4, h5⟩ := h3 y hy (by
      rw [← data] at hc
      simp at hc ⊢
      omega)
    have hb := List.length_pos_iff.mpr hl.ne
    have hq : rq.length = b.length + y.length := by rw [hy, List.length_append]
    refine ⟨y, got ++ [b], h4, .lines [] items h5 ok (by simpa using hy2) ?_ (by simpa using data), ?_, fun _ => ?_⟩
    · intro m hm
      obtain ⟨t, z, e, -⟩ := Mail.head_form (ok m (List.mem_of_mem_head? hm))
      rw [e]; simp
    all_goals rw [pend_zero (.inl h5.lineRead)]; omega

/-- `run()` keeps the invariant; it makes progress, unless it has to wait for the rest of a datagram. -/
theorem run_mode (h : Base p rx tx cap hd d rq got) (hm : Mode rx d rq air got came) (hc : came.flatten.length ≤ hd.length + cap) :
    ∃ rq' got', Base p rx tx cap hd (run p d true) rq' got' ∧ Mode rx (run p d true) rq' air got' came ∧
      2 * rq'.length + pend (run p d true) ≤ 2 * rq.length + pend d ∧
      (air = [] ∨ rx ≤ rq.length → 0 < rq.length → 2 * rq'.length + pend (run p d true) < 2 * rq.length + pend d) := by
  cases hm with
  | block b items hl fits ok text data =>
    have e : fillLineBuffer d = (d, false) := by
      unfold fillLineBuffer Dev.fillLine
      rw [if_neg (by simp [hl.lineRead])]
    rw [work_same h h e]
    obtain ⟨rq', got', a1, a2, a3, a4⟩ := block_act h hl fits ok text data hc
    refine ⟨rq', got', a1, a2, a3, fun x _ => a4 ?_⟩
    rcases x with x | x
    · have := congrArg List.length text
      simp [x] at this; omega
    · omega
  | lines u items hl ok text part data =>
    -- a part of a line
    have more : ∀ t : List Byte, (∃ v, u ++ rq ++ v = t) → (u ++ rq).length < 60 → nl ∉ t → gt ∉ t → (58 : Byte) ∉ t →
        (∀ m ∈ items.head?, (u ++ rq).length < m.head.length) →
        ∃ rq' got', Base p rx tx cap hd (run p d true) rq' got' ∧ Mode rx (run p d true) rq' air got' came ∧
          2 * rq'.length + pend (run p d true) ≤ 2 * rq.length + pend d ∧
          (air = [] ∨ rx ≤ rq.length → 0 < rq.length → 2 * rq'.length + pend (run p d true) < 2 * rq.length + pend d) := by
      rintro t ⟨v, hv⟩ hlen h1 h2 h3 hp
      obtain ⟨g, e, g1, g2⟩ := read_part h hl hv hlen h1 h2 h3
      rw [work_same h g1 e]
      obtain ⟨g3, g4⟩ := act_lines g1 g2
      refine ⟨[], got, g3, .lines (u ++ rq) items g4 ok (by simpa using text) hp data, ?_, fun _ _ => ?_⟩ <;>
        rw [pend_zero (.inl g4.lineRead), List.length_nil] <;> omega
    cases items with
    | nil =>
      simp only [List.flatMap_nil, List.append_eq_nil_iff] at text
      refine more [] ⟨[], by simp [text.1.1, text.1.2]⟩ (by simp [text.1.1, text.1.2]) (by simp) (by simp) (by simp) (by simp)
    | cons m items =>
      obtain ⟨t, z, e, k1, k2, k3, k4, k5⟩ := Mail.head_form (ok m (List.mem_cons_self ..))
      have hpart := part m rfl
      have hml : m.head.length = t.length + 1 := by rw [e]; simp
      have text2 : u ++ rq ++ air = t ++ z :: (m.body ++ items.flatMap Mail.text) := by
        rw [text, List.flatMap_cons]; unfold Mail.text; rw [e]; simp
      by_cases hlt : (u ++ rq).length < m.head.length
      · have hpre : ∃ v, u ++ rq ++ v = t := by
          rcases List.append_eq_append_iff.mp text2 with ⟨a, e1, e2⟩ | ⟨a, e1, e2⟩
          · exact ⟨a, e1.symm⟩
          · have : a = [] := by
              have := congrArg List.length e1
              rw [List.length_append (as := t)] at this
              exact List.eq_nil_of_length_eq_zero (by omega)
            subst this
            exact ⟨[], by simpa using e1⟩
        exact more t hpre (by omega) k2 k3 k4 (fun m' hm' => by simp at hm'; subst hm'; exact hlt)
      · obtain ⟨y, hy, hy2⟩ : ∃ y, u ++ rq = t ++ z :: y ∧ y ++ air = m.body ++ items.flatMap Mail.text := by
          have text3 : u ++ rq ++ air = (t ++ [z]) ++ (m.body ++ items.flatMap Mail.text) := by rw [text2]; simp
          rcases List.append_eq_append_iff.mp text3 with ⟨a, e1, e2⟩ | ⟨a, e1, e2⟩
          · have : a = [] := by
              have := congrArg List.length e1
              simp at this
              simp at hlt
              exact List.eq_nil_of_length_eq_zero (by omega)
            subst this
            exact ⟨[], by simpa using e1.symm, by simpa using e2⟩
          · exact ⟨a, by rw [e1]; simp, e2.symm⟩
        obtain ⟨g, g1, g2, g3, g4⟩ := read_line h hl hy (by omega) k1 k2 k3 k4 k5
        rw [← e] at g4
        have hq := congrArg List.length hy
        simp at hq
        have ok' : ∀ m ∈ items, m.Ok meaningEsp rx := fun m hm => ok m (List.mem_cons_of_mem _ hm)
        cases m with
        | noise l =>
          rw [work_line h g2 g1 (parse_noise g2 g4 (ok _ (List.mem_cons_self ..)).2.1)]
          obtain ⟨a1, a2⟩ := act_lines g2 g3
          refine ⟨y, got, a1, .lines [] items a2 ok' (by simpa [Mail.body] using hy2) ?_ (by simpa [Mail.data] using data), ?_, fun _ _ => ?_⟩
          · intro m hm
            obtain ⟨t, z, e, -⟩ := Mail.head_form (ok' m (List.mem_of_mem_head? hm))
            rw [e]; simp
          all_goals rw [pend_zero (.inl a2.lineRead)]; omega
        | datagram b =>
          obtain ⟨b1, b2, b3⟩ := ok _ (List.mem_cons_self ..)
          have e2 := parse_header (p := p) g2 g3 g4 b3
          have g5 : Base p rx tx cap hd { g with bytesToRead := b.length, lineRead := false, dataPending := true } y got :=
            ⟨g2.isOpen, g2.reset, g2.wait, g2.rep, g2.disc, g2.ip, g2.wbuf, g2.rssi, g2.mac, g2.typ, g2.rcv, ⟨g2.line.len, g2.line.fill, g2.line.oob⟩, g2.ser,
              g2.free, g2.cs, g2.hand, g2.rbuf, g2.size⟩
          have g6 : Block { g with bytesToRead := b.length, lineRead := false, dataPending := true } b :=
            ⟨rfl, rfl, b1, g3.snd.imp (fun x => ⟨x, rfl⟩) id, g3.fill⟩
          rw [work_line h g5 g1 e2]
          obtain ⟨rq', got', a1, a2, a3, -⟩ := block_act g5 g6 b2 ok' hy2 (by simpa [Mail.data] using data) hc
          refine ⟨rq', got', a1, a2, ?_, fun _ _ => ?_⟩
          · have := pend_le { g with bytesToRead := b.length, lineRead := false, dataPending := true }
            omega
          · have := pend_le { g with bytesToRead := b.length, lineRead := false, dataPending := true }
            omega

/-! ### Deeds -/

/-- The invariant. -/
structure Held (p : Platform) (rx tx cap : Nat) (w : Post D) (rq : List Byte) (got : List (List Byte)) : Prop where
  base : Base p rx tx cap (handed w.drv.trace) w.drv rq got
  mode : Mode rx w.drv rq w.air got w.came
  room : w.came.flatten.length ≤ (handed w.drv.trace).length + cap

/-- What is to be done. -/
def left (w : Post D) (rq : List Byte) : Nat := 3 * w.air.length + 2 * rq.length + pend w.drv

variable {w : Post D}

theorem Held.avail (h : Held p rx tx cap w rq got) : w.drv.ser.bytesAvailable.2 = rq.length := by rw [h.base.ser.bytesAvailable]

theorem Held.roomEq (h : Held p rx tx cap w rq got) : w.room = rx - rq.length := by
  unfold Post.room
  rw [h.avail, show w.drv.ser.readBufferSize = rx from h.base.ser.rxs]

theorem Held.le (h : Held p rx tx cap w rq got) : rq.length ≤ rx := by
  have := h.base.ser.q.rx.ring.le
  rw [h.base.ser.rxs] at this
  exact this

/-- If there is something to be done, then there are bytes. -/
theorem Held.bytes (h : Held p rx tx cap w rq got) (hl : 0 < left w rq) : 0 < w.air.length + rq.length := by
  unfold left at hl
  cases h.mode with
  | lines u items hl' => rw [pend_zero (.inl hl'.lineRead)] at hl; omega
  | block b items hl' fits ok text data =>
    have := congrArg List.length text
    have := List.length_pos_iff.mpr hl'.ne
    simp at *
    omega

theorem Held.run (h : Held p rx tx cap w rq got) :
    ∃ rq' got', Held p rx tx cap (w.act (step p) .run) rq' got' ∧ left (w.act (step p) .run) rq' ≤ left w rq ∧
      (w.air = [] ∨ rx ≤ rq.length → 0 < rq.length → left (w.act (step p) .run) rq' < left w rq) := by
  obtain ⟨rq', got', a1, a2, a3, a4⟩ := run_mode h.base h.mode h.room
  have e : (w.act (step p) .run).drv = Espressif.run p w.drv true := rfl
  have ea : (w.act (step p) .run).air = w.air := rfl
  have hh : handed (w.act (step p) .run).drv.trace = handed w.drv.trace := a1.hand
  refine ⟨rq', got', ⟨by rw [hh]; exact a1, a2, by rw [hh]; exact h.room⟩, ?_, fun x y => ?_⟩
  · unfold left; rw [ea, e]; omega
  · have := a4 x y
    unfold left; rw [ea, e]; omega

theorem Held.read (h : Held p rx tx cap w rq got) (k : Nat) :
    Held p rx tx cap (w.act (step p) (.read k)) rq got ∧ left (w.act (step p) (.read k)) rq = left w rq ∧
    handed (w.act (step p) (.read k)).drv.trace = got.flatten.take ((handed w.drv.trace).length + k) := by
  obtain ⟨q, r1, r2⟩ := h.base.rbuf
  obtain ⟨m1, m2⟩ := Ring.rep_pullN r1 k
  have e : (w.act (step p) (.read k)).drv = { w.drv with rbuf := (w.drv.rbuf.pullN k).1, trace := w.drv.trace ++ [.apiRead (q.take k)] } := by
    show Dev.log (w.drv.read k).1 (.apiRead (w.drv.read k).2) = _
    unfold Dev.read
    rw [m2]; rfl
  have hh : handed (w.act (step p) (.read k)).drv.trace = handed w.drv.trace ++ q.take k := by
    rw [e]
    show handed (_ ++ _) = _
    rw [Dev.handed_append]; simp [handed]
  have b := h.base
  have hb : Base p rx tx cap (handed w.drv.trace ++ q.take k) (w.act (step p) (.read k)).drv rq got := by
    refine ⟨?_, ?_, ?_, ?_, ?_, ?_, ?_, ?_, ?_, ?_, ?_, ?_, ?_, ?_, ?_, hh, ⟨q.drop k, ?_, ?_⟩, ?_⟩ <;> try rw [e]
    · exact b.isOpen
    · exact b.reset
    · exact b.wait
    · exact b.rep
    · exact b.disc
    · exact b.ip
    · exact b.wbuf
    · exact b.rssi
    · exact b.mac
    · exact b.typ
    · exact b.rcv
    · exact ⟨b.line.len, b.line.fill, b.line.oob⟩
    · exact b.ser
    · exact b.free
    · exact b.cs
    · exact m1
    · rw [← r2]; simp
    · exact (Ring.size_pullN ..).trans b.size
  refine ⟨⟨by rw [hh]; exact hb, ?_, ?_⟩, ?_, ?_⟩
  · show Mode rx (w.act (step p) (.read k)).drv rq w.air got w.came
    rw [e]
    cases h.mode with
    | lines u items hl ok text part data => exact .lines u items ⟨hl.lineRead, hl.rd, hl.snd, hl.fill, hl.part⟩ ok text part data
    | block b items hl fits ok text data => exact .block b items ⟨hl.lineRead, hl.rd, hl.ne, hl.snd, hl.fill⟩ fits ok text data
  · rw [hh, List.length_append]
    have := h.room
    show w.came.flatten.length ≤ _
    omega
  · unfold left pend; rw [e]; rfl
  · rw [hh, ← r2, List.take_append]; simp [List.take_of_length_le]

theorem Held.pass (h : Held p rx tx cap w rq got) (k : Nat) :
    ∃ rq', Held p rx tx cap (w.act (step p) (.pass k)) rq' got ∧ left (w.act (step p) (.pass k)) rq' ≤ left w rq ∧
      (left (w.act (step p) (.pass k)) rq' = left w rq → (w.act (step p) (.pass k)).air = [] ∨ rx ≤ rq'.length) ∧
      ((w.air = [] ∨ rx ≤ rq.length) → rq' = rq ∧ (w.act (step p) (.pass k)).air = w.air) := by
  generalize hn : min (k + 1) w.room = n
  have hle := h.le
  have hr := h.roomEq
  have e : (w.act (step p) (.pass k)).drv = { w.drv with ser := w.drv.ser.transfers ((w.air.take n).map fun c => ⟨some c, false⟩) } := by
    rw [← hn]; rfl
  have ea : (w.act (step p) (.pass k)).air = w.air.drop n := by rw [← hn]; rfl
  have b := h.base
  obtain ⟨c1, c2, c3⟩ := b.ser.arrive (w.air.take n) (by rw [List.length_take]; omega)
  have hb : Base p rx tx cap (handed w.drv.trace) (w.act (step p) (.pass k)).drv (rq ++ w.air.take n) got := by
    rw [e]
    exact ⟨b.isOpen, b.reset, b.wait, b.rep, b.disc, b.ip, b.wbuf, b.rssi, b.mac, b.typ, b.rcv, ⟨b.line.len, b.line.fill, b.line.oob⟩, c1,
      (show 20 ≤ Ser.txFree _ by rw [c2]; exact b.free), b.cs, b.hand, b.rbuf, b.size⟩
  have hh : handed (w.act (step p) (.pass k)).drv.trace = handed w.drv.trace := by rw [e]
  have hp : pend (w.act (step p) (.pass k)).drv = pend w.drv := by rw [e]; rfl
  refine ⟨rq ++ w.air.take n, ⟨by rw [hh]; exact hb, ?_, by rw [hh]; exact h.room⟩, ?_, ?_, ?_⟩
  · show Mode rx (w.act (step p) (.pass k)).drv _ _ got w.came
    rw [ea, e]
    cases h.mode with
    | lines u items hl ok text part data =>
      exact .lines u items ⟨hl.lineRead, hl.rd, hl.snd, hl.fill, hl.part⟩ ok (by rw [← text]; simp) part data
    | block b items hl fits ok text data =>
      exact .block b items ⟨hl.lineRead, hl.rd, hl.ne, hl.snd, hl.fill⟩ fits ok (by rw [← text]; simp) data
  · unfold left
    rw [hp, ea]; simp; omega
  · unfold left
    rw [hp, ea]
    simp only [List.length_drop, List.length_append, List.length_take]
    intro x
    by_cases h0 : w.air.length = 0
    · left
      exact List.eq_nil_of_length_eq_zero (by rw [List.length_drop]; omega)
    · right; omega
  · rintro (x | x)
    · rw [ea, x]; simp
    · have : n = 0 := by omega
      rw [ea, this]; simp

theorem Held.says (h : Held p rx tx cap w rq got) (m : Mail) (hm : m.Ok meaningEsp rx) :
    Held p rx tx cap (w.act (step p) (.says m)) rq got := by
  unfold Post.act
  dsimp only
  split
  · rename_i hr
    rw [h.base.size] at hr
    refine ⟨h.base, ?_, hr⟩
    show Mode rx w.drv rq (w.air ++ m.text) got (w.came ++ m.data)
    cases h.mode with
    | lines u items hl ok text part data =>
      refine .lines u (items ++ [m]) hl ?_ (by rw [← List.append_assoc, text]; simp) ?_ (by rw [← data]; simp)
      · intro x hx
        rcases List.mem_append.mp hx with hx | hx
        · exact ok x hx
        · simp at hx; rw [hx]; exact hm
      · intro x hx
        cases items with
        | nil =>
          simp at hx
          subst hx
          simp at text
          obtain ⟨t, z, e, -⟩ := Mail.head_form hm
          rw [e, text.1]; simp
        | cons y items => exact part x (by simpa using hx)
    | block b items hl fits ok text data =>
      refine .block b (items ++ [m]) hl fits ?_ (by rw [← List.append_assoc, text]; simp) (by rw [← data]; simp)
      intro x hx
      rcases List.mem_append.mp hx with hx | hx
      · exact ok x hx
      · simp at hx; rw [hx]; exact hm
  · exact h

theorem Held.act (h : Held p rx tx cap w rq got) (a : Deed) (ha : ∀ m, a = .says m → m.Ok meaningEsp rx) :
    ∃ rq' got', Held p rx tx cap (w.act (step p) a) rq' got' ∧ (a.still = true → left (w.act (step p) a) rq' ≤ left w rq) := by
  cases a with
  | run => obtain ⟨rq', got', h1, h2, -⟩ := h.run; exact ⟨rq', got', h1, fun _ => h2⟩
  | read k => exact ⟨rq, got, (h.read k).1, fun _ => Nat.le_of_eq (h.read k).2.1⟩
  | pass k => obtain ⟨rq', h1, h2, -⟩ := h.pass k; exact ⟨rq', got, h1, fun _ => h2⟩
  | says m => exact ⟨rq, got, h.says m (ha m rfl), fun x => Bool.noConfusion x⟩

theorem Held.acts (h : Held p rx tx cap w rq got) (as : List Deed) (ha : ∀ m, .says m ∈ as → m.Ok meaningEsp rx) :
    ∃ rq' got', Held p rx tx cap (w.acts (step p) as) rq' got' ∧ ((∀ a ∈ as, a.still = true) → left (w.acts (step p) as) rq' ≤ left w rq) := by
  induction as generalizing w rq got with
  | nil => exact ⟨rq, got, h, fun _ => Nat.le_refl _⟩
  | cons a as ih =>
    obtain ⟨rq1, got1, h1, h2⟩ := h.act a (fun m e => ha m (by simp [e]))
    obtain ⟨rq2, got2, h3, h4⟩ := ih h1 (fun m e => ha m (by simp [e]))
    refine ⟨rq2, got2, h3, fun x => Nat.le_trans (h4 fun a m => x a (by simp [m])) (h2 (x a (by simp)))⟩

/-- When all bytes have arrived for which there is room, `run()` makes progress, whatever happens before. -/
theorem Held.wake (hx : 0 < rx) (h : Held p rx tx cap w rq got) (hl : 0 < left w rq) (hs : w.air = [] ∨ rx ≤ rq.length) (ys : List Deed)
    (hy : ∀ a ∈ ys, a.still = true) :
    ∃ rq' got', Held p rx tx cap (w.acts (step p) (ys ++ [.run])) rq' got' ∧ left (w.acts (step p) (ys ++ [.run])) rq' < left w rq := by
  have hpos : 0 < rq.length := by
    have := h.bytes hl
    rcases hs with x | x
    · rw [x] at this; simpa using this
    · omega
  induction ys generalizing w rq got with
  | nil =>
    obtain ⟨rq', got', h1, -, h3⟩ := h.run
    exact ⟨rq', got', h1, h3 hs hpos⟩
  | cons y ys ih =>
    have hy' : ∀ a ∈ ys, a.still = true := fun a m => hy a (by simp [m])
    have hyr : ∀ a ∈ ys ++ [Deed.run], a.still = true := by
      intro a m
      rcases List.mem_append.mp m with m | m
      · exact hy' a m
      · simp at m; subst m; rfl
    have hsay : ∀ m, Deed.says m ∈ ys ++ [Deed.run] → m.Ok meaningEsp rx := fun m x => Bool.noConfusion (hyr _ x)
    have e : w.acts (step p) (y :: ys ++ [.run]) = (w.act (step p) y).acts (step p) (ys ++ [.run]) := rfl
    rw [e]
    cases y with
    | run =>
      obtain ⟨rq', got', h1, -, h3⟩ := h.run
      obtain ⟨rq2, got2, h4, h5⟩ := h1.acts (ys ++ [.run]) hsay
      exact ⟨rq2, got2, h4, Nat.lt_of_le_of_lt (h5 hyr) (h3 hs hpos)⟩
    | read k =>
      obtain ⟨h1, h2, -⟩ := h.read k
      obtain ⟨rq2, got2, h3, h4⟩ := ih h1 (by rw [h2]; exact hl) hs hy' hpos
      exact ⟨rq2, got2, h3, by rw [← h2]; exact h4⟩
    | pass k =>
      obtain ⟨rq', h1, h2, -, h3⟩ := h.pass k
      obtain ⟨e1, e2⟩ := h3 hs
      subst e1
      by_cases hlt : left (w.act (step p) (.pass k)) rq' < left w rq'
      · obtain ⟨rq2, got2, h4, h5⟩ := h1.acts (ys ++ [.run]) hsay
        exact ⟨rq2, got2, h4, Nat.lt_of_le_of_lt (h5 hyr) hlt⟩
      · obtain ⟨rq2, got2, h4, h5⟩ := ih h1 (by omega) (by rw [e2]; exact hs) hy' hpos
        exact ⟨rq2, got2, h4, by omega⟩
    | says m => exact Bool.noConfusion (hy _ (List.mem_cons_self ..))

theorem acts_append (w : Post D) (as bs : List Deed) : w.acts (step p) (as ++ bs) = (w.acts (step p) as).acts (step p) bs := by
  unfold Post.acts; rw [List.foldl_append]

/-- One round. -/
theorem Held.round (hx : 0 < rx) (h : Held p rx tx cap w rq got) {as : List Deed} (ha : Delivers as) :
    ∃ rq' got', Held p rx tx cap (w.acts (step p) as) rq' got' ∧ left (w.acts (step p) as) rq' ≤ left w rq - 1 := by
  obtain ⟨hs, xs, k, ys, zs, rfl⟩ := ha
  have still : ∀ bs : List Deed, (∀ a ∈ bs, a ∈ xs ++ .pass k :: ys ++ .run :: zs) → (∀ a ∈ bs, a.still = true) ∧
      ∀ m, Deed.says m ∈ bs → m.Ok meaningEsp rx :=
    fun bs hb => ⟨fun a m => hs a (hb a m), fun m x => Bool.noConfusion (hs _ (hb _ x))⟩
  have sx := still xs (fun a m => by simp [m])
  have sy := still ys (fun a m => by simp [m])
  have sz := still zs (fun a m => by simp [m])
  have sr := still (ys ++ [.run]) (fun a m => by simp at m ⊢; rcases m with m | m <;> simp [m])
  rw [show xs ++ .pass k :: ys ++ .run :: zs = xs ++ ([.pass k] ++ ((ys ++ [.run]) ++ zs)) by simp]
  rw [acts_append, acts_append, acts_append]
  obtain ⟨rq1, got1, h1, l1⟩ := h.acts xs sx.2
  have l1 := l1 sx.1
  obtain ⟨rq2, h2, l2, l2', -⟩ := h1.pass k
  have e : (w.acts (step p) xs).acts (step p) [.pass k] = (w.acts (step p) xs).act (step p) (.pass k) := rfl
  rw [e]
  suffices hm : ∃ rq3 got3, Held p rx tx cap (((w.acts (step p) xs).act (step p) (.pass k)).acts (step p) (ys ++ [.run])) rq3 got3 ∧
      left (((w.acts (step p) xs).act (step p) (.pass k)).acts (step p) (ys ++ [.run])) rq3 ≤ left w rq - 1 by
    obtain ⟨rq3, got3, h3, l3⟩ := hm
    obtain ⟨rq4, got4, h4, l4⟩ := h3.acts zs sz.2
    exact ⟨rq4, got4, h4, Nat.le_trans (l4 sz.1) l3⟩
  by_cases hlt : left ((w.acts (step p) xs).act (step p) (.pass k)) rq2 < left (w.acts (step p) xs) rq1
  · obtain ⟨rq3, got3, h3, l3⟩ := h2.acts (ys ++ [.run]) sr.2
    exact ⟨rq3, got3, h3, by have := l3 sr.1; omega⟩
  · by_cases h0 : 0 < left ((w.acts (step p) xs).act (step p) (.pass k)) rq2
    · obtain ⟨rq3, got3, h3, l3⟩ := h2.wake hx h0 (l2' (by omega)) ys sy.1
      exact ⟨rq3, got3, h3, by omega⟩
    · obtain ⟨rq3, got3, h3, l3⟩ := h2.acts (ys ++ [.run]) sr.2
      exact ⟨rq3, got3, h3, by have := l3 sr.1; omega⟩

theorem Held.rounds (hx : 0 < rx) (h : Held p rx tx cap w rq got) (rs : List (List Deed)) (hr : ∀ as ∈ rs, Delivers as) :
    ∃ rq' got', Held p rx tx cap (w.acts (step p) rs.flatten) rq' got' ∧ left (w.acts (step p) rs.flatten) rq' ≤ left w rq - rs.length := by
  induction rs generalizing w rq got with
  | nil => exact ⟨rq, got, h, Nat.le_refl _⟩
  | cons as rs ih =>
    obtain ⟨rq1, got1, h1, l1⟩ := h.round hx (hr as (by simp))
    obtain ⟨rq2, got2, h2, l2⟩ := ih h1 (fun a m => hr a (by simp [m]))
    rw [List.flatten_cons, acts_append]
    exact ⟨rq2, got2, h2, by simp; omega⟩

/-- Nothing is to be done: everything was received. -/
theorem Held.over (h : Held p rx tx cap w rq got) (hl : left w rq = 0) : got = w.came := by
  have ha : w.air = [] := List.eq_nil_of_length_eq_zero (by unfold left at hl; omega)
  have hq : rq = [] := List.eq_nil_of_length_eq_zero (by unfold left at hl; omega)
  cases h.mode with
  | block b items hl' fits ok text data =>
    rw [ha, hq] at text
    have := hl'.ne
    simp at text
    exact absurd text.1 this
  | lines u items hl' ok text part data =>
    cases items with
    | nil => simpa using data
    | cons m items =>
      have := part m rfl
      rw [ha, hq] at text
      have t := congrArg List.length text
      simp [Mail.text] at t
      omega

theorem came_of (h : Held p rx tx cap w rq got) : got <+: w.came := by
  cases h.mode with
  | block b items hl' fits ok text data => exact ⟨_, data⟩
  | lines u items hl' ok text part data => exact ⟨_, data⟩

theorem Held.sound (h : Held p rx tx cap w rq got) : w.Sound := by
  obtain ⟨q, r1, r2⟩ := h.base.rbuf
  obtain ⟨x, hx⟩ := came_of h
  refine ⟨⟨q ++ x.flatten, ?_⟩, ⟨got.length, ?_⟩, ?_⟩
  · rw [← List.append_assoc, r2, ← hx]; simp
  · rw [← hx, List.take_left, ← r2, List.length_append]
    show _ + w.drv.rbuf.bytesAvailable = _
    rw [r1.bytesAvailable]
  · unfold Dev.isConnected
    rcases h.base.cs with e | e <;> rw [e] <;> rfl

theorem acts_came (w : Post D) (as : List Deed) (ha : ∀ a ∈ as, a.still = true) : (w.acts (step p) as).came = w.came := by
  induction as generalizing w with
  | nil => rfl
  | cons a as ih =>
    refine (ih (w.act (step p) a) (fun b m => ha b (by simp [m]))).trans ?_
    cases a with
    | says m => exact Bool.noConfusion (ha _ (List.mem_cons_self ..))
    | _ => rfl

/-- Everything is delivered. -/
theorem Held.delivered (hx : 0 < rx) (h : Held p rx tx cap w rq got) (rs : List (List Deed)) (hr : ∀ as ∈ rs, Delivers as)
    (he : w.effort ≤ rs.length) (k : Nat) (hk : w.came.flatten.length ≤ k) :
    handed (w.acts (step p) (rs.flatten ++ [.read k])).drv.trace = w.came.flatten := by
  obtain ⟨rq', got', h1, l1⟩ := h.rounds hx rs hr
  have hz : left (w.acts (step p) rs.flatten) rq' = 0 := by
    have := pend_le w.drv
    unfold Post.effort at he
    rw [h.avail] at he
    have : left w rq ≤ rs.length := by unfold left; omega
    omega
  have hc := h1.over hz
  have hs : ∀ a ∈ rs.flatten, a.still = true := by
    intro a m
    obtain ⟨as, m1, m2⟩ := List.mem_flatten.mp m
    exact (hr as m1).1 a m2
  rw [acts_append]
  refine ((h1.read k).2.2).trans ?_
  rw [hc, acts_came _ _ hs, List.take_of_length_le (by omega)]

end Espressif
end Verif
