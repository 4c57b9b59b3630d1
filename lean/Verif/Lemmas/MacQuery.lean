import Verif.Lemmas.Wedge
import Verif.Lemmas.Payload

/-! When the MAC address is asked for. -/

namespace Verif

open Dev Spec

/-- No command with the text `w` was sent. -/
def Never (w : List Byte) (d : Dev S R X) : Prop := ∀ g, .cmd w g ∉ d.trace

theorem Never.more {w : List Byte} {d e : Dev S R X} (h : Never w d) (more : List Ev)
    (ht : e.trace = d.trace ++ more) (hm : ∀ g, .cmd w g ∉ more) : Never w e := by
  intro g hg
  rw [ht] at hg
  rcases List.mem_append.mp hg with x | x
  · exact h g x
  · exact hm g x

theorem Never.same {w : List Byte} {d e : Dev S R X} (h : Never w d) (ht : e.trace = d.trace) :
    Never w e := fun g => by rw [ht]; exact h g

theorem never_calls (w : List Byte) : Calls (Never (S := S) (R := R) (X := X) w) where
  io _ _ _ _ _ h := h.same rfl
  isOpen _ _ h := h.same rfl
  conn _ h _ _ := h.more _ rfl (by simp)
  disc0 _ h _ := h.more _ rfl (by simp)
  disc _ h _ := h.more _ rfl (by simp)
  write0 _ h _ := h.more _ rfl (by simp)
  write _ _ h _ := h.more _ rfl (by simp)
  read _ _ h := h.more _ rfl (by simp)
  rssi _ h := h.same rfl
  userTx _ _ _ _ h := h.more _ rfl (by simp)
  userRx _ _ _ _ h := h.more _ rfl (by simp)
  host _ _ _ _ h := h.same rfl

theorem fillLoop_txFree (stop : Mem → Nat → Byte → Option R) (fuel : Nat) (s : Ser) (m : Mem) (k : Nat) :
    s.txFree ≤ (fillLoop stop fuel s m k).1.txFree := by
  induction fuel generalizing s m k with
  | zero => exact Nat.le_refl _
  | succ n ih =>
    have h1 := Ser.txFree_bytesAvailable s
    have h2 : s.bytesAvailable.1.txFree ≤ s.bytesAvailable.1.read1.1.txFree := Ser.txFree_sync _
    unfold fillLoop
    dsimp only
    split
    · exact h1
    · split
      · exact Nat.le_trans h1 h2
      · exact Nat.le_trans (Nat.le_trans h1 h2) (ih _ _ _)

theorem fillLine_txFree (d : Dev S R X) (stop : Mem → Nat → Byte → Option R) :
    d.ser.txFree ≤ (d.fillLine stop).1.ser.txFree := by
  unfold fillLine
  split
  · have := fillLoop_txFree stop (lineMax - d.lbFill) d.ser d.line d.lbFill
    dsimp only
    split <;> exact this
  · exact Nat.le_refl _

/-- A short command is sent whole. -/
theorem sendCommand_whole (d : Dev S R X) (w : List Byte) (h0 : (0 : Byte) ∉ w) (hf : w.length + 2 ≤ d.ser.txFree) :
    (d.sendCommand w).trace = d.trace ++ [.cmd w w, .arg lineEnd lineEnd] := by
  have h1 := Ser.writeStr_all d.ser w h0 (by omega)
  have e : (d.cmd w).ser = (d.ser.writeStr w).1 := rfl
  have h2 := Ser.writeStr_all (d.cmd w).ser lineEnd (by decide) (by rw [e]; simp [lineEnd]; omega)
  rw [sendCommand_trace2, h1.1, h2.1, List.take_length, List.take_length]

namespace Espressif

theorem never_act {d : D} (h : Never b!"AT+CIPSTAMAC?" d) : Never b!"AT+CIPSTAMAC?" (act d) := by
  have hi := fun g => h g
  intro g
  unfold act
  split <;> (try unfold Dev.handleConnect) <;> (try unfold actCwjap) <;> (try unfold actCipstart) <;>
    (try unfold actConnected) <;> (try unfold actCiprecvdata) <;> (try unfold actReceiving) <;>
    (try unfold sendCiprcvdata) <;> (try unfold prepareSending) <;> (try unfold receive) <;>
    (try unfold Dev.handleDisconnect) <;> (try dsimp only) <;> (repeat' split) <;>
    simp [hi, Dev.arg, Dev.argN, Dev.cmd, sendCommand, Dev.sendData]

theorem never_sections {p : Platform} (hp : p.charSigned = true) : Sections p (Never b!"AT+CIPSTAMAC?") where
  fail _ h _ := h.same rfl
  reset d h _ := by
    intro g
    have hi := h g
    unfold handleReset
    dsimp only
    (repeat' split) <;> simp [hi]
  line d s m l r _ h _ _ _ _ _ _ := h.more [.line l] (by rw [parseLine_trace]) (by simp)
  drop _ h _ _ _ := h.more _ rfl (by simp)
  csq d h _ _ _ _ _ _ := h.more _ (sendCommand_trace2 d b!"AT+CWJAP?") (by simp)
  mac d h _ _ _ _ hm _ := absurd hm (by simp [Espressif.macMarked, hp])
  act _ h _ _ _ _ := never_act h

theorem never_own (w : List Byte) : Own (Never w) where
  reset _ h := h.more [.apiReset] rfl (by simp)
  ext _ _ h := h.same rfl
  ub _ h := h.same rfl

end Espressif

namespace CC1352P7

theorem never_act {d : D} (h : Never b!"AT+CIPSTAMAC" d) : Never b!"AT+CIPSTAMAC" (act d) := by
  have hi := fun g => h g
  intro g
  unfold act
  split <;> (try unfold Dev.handleConnect) <;> (try unfold actCipstart) <;>
    (try unfold actConnected) <;> (try unfold actCiprecvdata) <;> (try unfold actReceiving) <;>
    (try unfold sendCiprcvdata) <;> (try unfold prepareSending) <;> (try unfold receive) <;>
    (try unfold Dev.handleDisconnect) <;> (try dsimp only) <;> (repeat' split) <;>
    simp [hi, Dev.arg, Dev.cmd, sendCommand, Dev.sendData]

theorem never_sections {p : Platform} (hp : p.charSigned = true) : Sections p (Never b!"AT+CIPSTAMAC") where
  fail _ h _ := h.same rfl
  reset d h _ := by
    intro g
    have hi := h g
    unfold handleReset
    dsimp only
    unfold Dev.ipConnect
    (repeat' split) <;> simp [hi]
  line d s m l _ h _ _ _ _ _ := h.more [.line l] (by rw [parseLine_trace]) (by simp)
  drop _ h _ _ _ := h.more _ rfl (by simp)
  csq d h _ _ _ _ _ _ := h.more _ (sendCommand_trace2 d b!"AT+CSQ") (by simp)
  mac d h _ _ _ _ hm _ := absurd hm (by simp [Espressif.macMarked, hp])
  act _ h _ _ _ _ := never_act h

theorem never_own (w : List Byte) : Own (Never w) where
  reset _ h := h.more [.apiReset] rfl (by simp)
  ext _ _ h := h.same rfl

end CC1352P7

namespace Espressif

theorem proceed_mac (p : Platform) {d : D} (hm : Espressif.macMarked p d.ext.mac = true) (h0 : d.ext.mac.get 0 = 0)
    (hw : d.wait = none) (hq : d.rep = .okReply) (hlr : d.lineRead = true) (hi : d.rssi ≠ int16Max)
    (hs : 20 ≤ d.ser.txFree) :
    (proceed p d).trace = d.trace ++ [.cmd b!"AT+CIPSTAMAC?" b!"AT+CIPSTAMAC?", .arg b!"\r\n" b!"\r\n"] := by
  unfold proceed
  have hs' : 20 ≤ d.serSpace := Nat.le_trans hs (Ser.txFree_spaceAvailable d.ser).2
  have hs2 : 20 ≤ d.askSpace.ser.txFree := by rw [Dev.txFree_askSpace]; exact hs'
  rw [if_neg (by simp [hw, hq]), if_neg (by omega)]
  unfold sendNext
  rw [if_neg (fun x => hi x.1), if_pos ⟨hm, h0, hlr⟩]
  exact sendCommand_whole d.askSpace b!"AT+CIPSTAMAC?" (by decide) (by simp; omega)

theorem mac_sent (p : Platform) (hp : p.charSigned = false) (d : D) (hl : LineOk d)
    (hm : 2 ≤ d.ext.mac.cells.length) (ho : d.isOpen = true) (hr : d.resetPending = false)
    (hw : d.wait = none) (hq : d.rep = .okReply) (hlr : d.lineRead = true) (hi : d.rssi ≠ int16Max)
    (hs : 20 ≤ d.ser.txFree) (hsn : d.snd ≠ .receiving) (ok : Bool) :
    ∃ new, (step p (step p d .requestMac) (.run ok)).trace = d.trace ++ new ∧
      ((∃ l more, new = .line l :: more) ∨
        new = [.cmd b!"AT+CIPSTAMAC?" b!"AT+CIPSTAMAC?", .arg b!"\r\n" b!"\r\n"]) := by
  have e1 : (requestMac d).ext.mac.get 0 = 0 := by
    show (((d.ext.mac.store 0 0).store 1 255).get 0) = 0
    cases hc : d.ext.mac.cells with
    | nil => simp [hc] at hm
    | cons a l => cases l with
      | nil => simp [hc] at hm
      | cons b l => simp [Mem.store, Mem.get, hc]
  have e2 : Espressif.macMarked p (requestMac d).ext.mac = true := by
    show Espressif.macMarked p ((d.ext.mac.store 0 0).store 1 255) = true
    unfold Espressif.macMarked
    cases hc : d.ext.mac.cells with
    | nil => simp [hc] at hm
    | cons a l => cases l with
      | nil => simp [hc] at hm
      | cons b l => simp [Mem.store, Mem.get, hc, hp]
  show ∃ new, (run p (requestMac d) ok).trace = d.trace ++ new ∧ _
  have q1 : LineOk (requestMac d) := ⟨hl.len, hl.fill, hl.oob⟩
  have q10 : (requestMac d).snd ≠ .receiving := hsn
  have q2 : (requestMac d).isOpen = true := ho
  have q3 : (requestMac d).resetPending = false := hr
  have q4 : (requestMac d).wait = none := hw
  have q5 : (requestMac d).rep = .okReply := hq
  have q6 : (requestMac d).lineRead = true := hlr
  have q7 : (requestMac d).rssi ≠ int16Max := hi
  have q8 : 20 ≤ (requestMac d).ser.txFree := hs
  have q9 : (requestMac d).trace = d.trace := rfl
  rw [← q9]
  generalize requestMac d = d at *
  unfold run
  rw [if_neg (by simp [q2])]
  rw [if_neg (by simp [q3])]
  unfold work
  dsimp only
  have hf : d.ser.txFree ≤ (fillLineBuffer d).1.ser.txFree := fillLine_txFree d _
  rcases d.fillLine_cases (lineStop d.typ d.rep) (stopOk d.typ d.rep).full q1 with
    ⟨s, m, k, e⟩ | ⟨_, s, m, r, l, e, _⟩
  · have e' : fillLineBuffer d = (d.setIo s m k, false) := e
    rw [e'] at hf ⊢
    simp only [Bool.false_eq_true, if_false]
    unfold flushIfDisconnecting
    rw [if_neg fun x => q10 x.2]
    exact ⟨_, proceed_mac p (d := d.setIo s m k) e2 e1 q4 q5 q6 q7 (Nat.le_trans q8 hf), Or.inr rfl⟩
  · have e' : fillLineBuffer d = (d.gotLine s m r l, true) := e
    rw [e']
    simp only [if_true]
    have ht : (parseLine p (d.gotLine s m r l)).1.trace = d.trace ++ [.line l] := by rw [parseLine_trace]
    split
    · exact ⟨[.line l], ht, Or.inl ⟨l, [], rfl⟩⟩
    · obtain ⟨new, hn⟩ := proceed_grows p (parseLine p (d.gotLine s m r l)).1
      exact ⟨.line l :: new, by rw [hn, ht]; simp, Or.inl ⟨l, new, rfl⟩⟩

end Espressif

namespace CC1352P7

theorem proceed_grows (p : Platform) (d : D) : ∃ new, (proceed p d).trace = d.trace ++ new := by
  unfold proceed
  split
  · exact ⟨[], by simp⟩
  · split
    · exact ⟨[], by simp [askSpace]⟩
    · have ht : d.trace = (askSpace d).trace := rfl
      rw [ht]
      generalize askSpace d = d
      unfold sendNext
      split
      · exact ⟨_, sendCommand_trace2 d _⟩
      · split
        · exact ⟨_, sendCommand_trace2 d _⟩
        · exact (act_turn d).grows

theorem proceed_mac (p : Platform) {d : D} (hm : Espressif.macMarked p d.ext.mac = true) (h0 : d.ext.mac.get 0 = 0)
    (hw : d.wait = none) (hq : d.rep = .okReply) (hlr : d.lineRead = true) (hi : d.rssi ≠ int16Max)
    (hs : 20 ≤ d.ser.txFree) :
    (proceed p d).trace = d.trace ++ [.cmd b!"AT+CIPSTAMAC" b!"AT+CIPSTAMAC", .arg b!"\r\n" b!"\r\n"] := by
  unfold proceed
  have hs' : 20 ≤ d.serSpace := Nat.le_trans hs (Ser.txFree_spaceAvailable d.ser).2
  have hs2 : 20 ≤ d.askSpace.ser.txFree := by rw [Dev.txFree_askSpace]; exact hs'
  rw [if_neg (by simp [hw, hq]), if_neg (by omega)]
  unfold sendNext
  rw [if_neg (fun x => hi x.1), if_pos ⟨hm, h0, hlr⟩]
  exact sendCommand_whole d.askSpace b!"AT+CIPSTAMAC" (by decide) (by simp; omega)

theorem mac_sent (p : Platform) (hp : p.charSigned = false) (d : D) (hl : LineOk d)
    (hm : 2 ≤ d.ext.mac.cells.length) (ho : d.isOpen = true) (hr : d.resetPending = false)
    (hw : d.wait = none) (hq : d.rep = .okReply) (hlr : d.lineRead = true) (hi : d.rssi ≠ int16Max)
    (hs : 20 ≤ d.ser.txFree) (hsn : d.snd ≠ .receiving) (ok : Bool) :
    ∃ new, (step p (step p d .requestMac) (.run ok)).trace = d.trace ++ new ∧
      ((∃ l more, new = .line l :: more) ∨
        new = [.cmd b!"AT+CIPSTAMAC" b!"AT+CIPSTAMAC", .arg b!"\r\n" b!"\r\n"]) := by
  have e1 : (requestMac d).ext.mac.get 0 = 0 := by
    show (((d.ext.mac.store 0 0).store 1 255).get 0) = 0
    cases hc : d.ext.mac.cells with
    | nil => simp [hc] at hm
    | cons a l => cases l with
      | nil => simp [hc] at hm
      | cons b l => simp [Mem.store, Mem.get, hc]
  have e2 : Espressif.macMarked p (requestMac d).ext.mac = true := by
    show Espressif.macMarked p ((d.ext.mac.store 0 0).store 1 255) = true
    unfold Espressif.macMarked
    cases hc : d.ext.mac.cells with
    | nil => simp [hc] at hm
    | cons a l => cases l with
      | nil => simp [hc] at hm
      | cons b l => simp [Mem.store, Mem.get, hc, hp]
  show ∃ new, (run p (requestMac d) ok).trace = d.trace ++ new ∧ _
  have q1 : LineOk (requestMac d) := ⟨hl.len, hl.fill, hl.oob⟩
  have q10 : (requestMac d).snd ≠ .receiving := hsn
  have q2 : (requestMac d).isOpen = true := ho
  have q3 : (requestMac d).resetPending = false := hr
  have q4 : (requestMac d).wait = none := hw
  have q5 : (requestMac d).rep = .okReply := hq
  have q6 : (requestMac d).lineRead = true := hlr
  have q7 : (requestMac d).rssi ≠ int16Max := hi
  have q8 : 20 ≤ (requestMac d).ser.txFree := hs
  have q9 : (requestMac d).trace = d.trace := rfl
  rw [← q9]
  generalize requestMac d = d at *
  unfold run
  rw [if_neg (by simp [q2])]
  rw [if_neg (by simp [q3])]
  unfold work
  dsimp only
  have hf : d.ser.txFree ≤ (fillLineBuffer d).1.ser.txFree := fillLine_txFree d _
  rcases d.fillLine_cases (lineStop d.rep) (stopOk (x := NoHeader) d.rep).full q1 with
    ⟨s, m, k, e⟩ | ⟨_, s, m, r, l, e, _⟩
  · have e' : fillLineBuffer d = (d.setIo s m k, false) := e
    rw [e'] at hf ⊢
    simp only [Bool.false_eq_true, if_false]
    unfold flushIfDisconnecting
    rw [if_neg fun x => q10 x.2]
    exact ⟨_, proceed_mac p (d := d.setIo s m k) e2 e1 q4 q5 q6 q7 (Nat.le_trans q8 hf), Or.inr rfl⟩
  · have e' : fillLineBuffer d = (d.gotLine s m r l, true) := e
    rw [e']
    simp only [if_true]
    have ht : (parseLine p (d.gotLine s m r l)).1.trace = d.trace ++ [.line l] := by rw [parseLine_trace]
    split
    · exact ⟨[.line l], ht, Or.inl ⟨l, [], rfl⟩⟩
    · obtain ⟨new, hn⟩ := proceed_grows p (parseLine p (d.gotLine s m r l)).1
      exact ⟨.line l :: new, by rw [hn, ht]; simp, Or.inl ⟨l, new, rfl⟩⟩

end CC1352P7

end Verif
