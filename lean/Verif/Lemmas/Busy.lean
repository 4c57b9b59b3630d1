import Verif.Lemmas.EffWifi

/-!
# While payload is expected, line reading is off

Invariant of all drivers (for the WiFi driver with TCP connections): as long as payload bytes are
expected, no line is being assembled and the driver is in the receiving state or in the state for a
port that could not be opened.
-/

namespace Verif

open Dev

/-- While payload is expected, line reading is off, the line buffer is empty and the send state is one
of two. -/
def Busy {S R X : Type} (a b : S) (d : Dev S R X) : Prop :=
  d.bytesToRead ≠ 0 → d.lineRead = false ∧ d.lbFill = 0 ∧ (d.snd = a ∨ d.snd = b)

section Generic

variable {S R X : Type} {a b : S}

theorem Busy.quiet {d : Dev S R X} (h : Busy a b d) : Quiet d :=
  fun hb => ⟨(h hb).1, (h hb).2.1⟩

theorem Busy.of_zero {d : Dev S R X} (h : d.bytesToRead = 0) : Busy a b d :=
  fun hb => absurd h hb

theorem Busy.congr {d d' : Dev S R X} (h : Busy a b d) (h1 : d'.bytesToRead = d.bytesToRead)
    (h2 : d'.lineRead = d.lineRead) (h3 : d'.lbFill = d.lbFill) (h4 : d'.snd = d.snd) :
    Busy a b d' := by
  intro hb
  rw [h1] at hb
  rw [h2, h3, h4]
  exact h hb

theorem Busy.flushReadBuffer {d : Dev S R X} (h : Busy a b d) : Busy a b d.flushReadBuffer := by
  intro hb
  have hb' : (flushLoop d.ser d.bytesToRead).2.1 ≠ 0 := hb
  have h0 : d.bytesToRead ≠ 0 := by
    intro e
    rw [e] at hb'
    exact hb' rfl
  obtain ⟨h1, h2, h3⟩ := h h0
  refine ⟨?_, h2, h3⟩
  show (if (flushLoop d.ser d.bytesToRead).2.1 = 0 then true else d.lineRead) = false
  rw [if_neg hb', h1]

theorem Busy.receive {d : Dev S R X} (h : Busy a b d) : Busy a b d.receive.1 := by
  cases hr : d.receive.2 with
  | false => rw [receive_false hr]; exact h
  | true =>
    apply Busy.of_zero
    unfold Dev.receive at hr ⊢
    split
    · rfl
    · rename_i hc; rw [if_neg hc] at hr; simp at hr

/-- What is known after `fillLineBuffer()`. -/
theorem Busy.fillLine {d : Dev S R X} (h : Busy a b d) (stop : Mem → Nat → Byte → Option R) :
    Busy a b (d.fillLine stop).1 ∧
      ((d.fillLine stop).2 = true → (d.fillLine stop).1.bytesToRead = 0 ∧
        (d.fillLine stop).1.lbFill = 0) := by
  cases hl : d.lineRead with
  | false => rw [fillLine_off d stop hl]; exact ⟨h, fun h => by simp at h⟩
  | true =>
    have hz : d.bytesToRead = 0 := by
      apply Classical.byContradiction
      intro hb
      have := (h hb).1
      rw [hl] at this
      simp at this
    exact ⟨.of_zero (by simpa using hz), fun hf => ⟨by simpa using hz, fillLine_fill hf⟩⟩

end Generic

namespace Sim7x00

theorem busy_parseLine {p : Platform} {d : D} (h : d.bytesToRead = 0) (hf : d.lbFill = 0) :
    Busy .receiving .serialError (parseLine p d).1 := by
  have hw : (parseWait d).1.bytesToRead = 0 := by
    unfold parseWait
    (repeat' split) <;> exact h
  unfold parseLine
  dsimp only
  split
  · exact .of_zero hw
  · have hw' : (parseWait d).1.lbFill = 0 := by simpa using hf
    generalize (parseWait d).1 = e at hw hw'
    have h1 : Busy .receiving .serialError (parseReply p e).1 := by
      unfold parseReply
      split <;> (try dsimp only) <;> (repeat' split) <;> (try exact .of_zero (by simpa using hw))
      · rename_i hr
        intro _
        refine ⟨?_, by simpa using hw', Or.inl rfl⟩
        revert hr
        unfold SimDev.parseCiprxget2
        split <;> simp
      · rename_i hr
        revert hr
        unfold SimDev.parseCiprxget2
        split
        · simp
        · intro _; exact .of_zero hw
    split
    · exact h1
    · unfold checkState
      dsimp only
      split
      · exact h1.congr (by simp) (by simp) (by simp) (by simp)
      · exact h1

theorem busy_act {d : D} (h : Busy .receiving .serialError d) :
    Busy .receiving .serialError (act d) := by
  by_cases hr : d.snd = .receiving
  · have e : act d = actReceiving d := by simp only [act, hr]
    rw [e]
    unfold actReceiving
    split
    · dsimp only
      split
      · exact h.receive.congr rfl rfl rfl rfl
      · exact h.receive
    · rename_i hb
      have hb' : d.bytesToRead = 0 := by omega
      split <;> exact .of_zero hb'
  · by_cases hs : d.snd = .serialError
    · have e : act d = d := by simp only [act, hs]
      rw [e]
      exact h
    · have h0 : d.bytesToRead = 0 := by
        apply Classical.byContradiction
        intro hb
        rcases (h hb).2.2 with h3 | h3
        · exact hr h3
        · exact hs h3
      apply Busy.of_zero
      unfold act
      split
      all_goals first
        | contradiction
        | (simp [h0]; done)
        | (unfold actCgsockcont; dsimp only; (repeat' split) <;> simp [h0])
        | (unfold actCipopen; dsimp only; (repeat' split) <;> simp [h0])
        | (unfold actConnected; dsimp only; (repeat' split) <;> simp [h0])
        | (unfold actCiprxget2; dsimp only; (repeat' split) <;> simp [h0])
        | ((try dsimp only); (repeat' split) <;> simp [h0])

theorem busy_proceed {d : D} (h : Busy .receiving .serialError d) :
    Busy .receiving .serialError (proceed d) := by
  unfold proceed
  split
  · exact h
  · split
    · exact h
    · have h' : Busy .receiving .serialError d.askSpace := h
      generalize d.askSpace = d at h'
      unfold sendNext
      split
      · exact h'.congr (by simp) (by simp) (by simp) (by simp)
      · have h2 : Busy .receiving .serialError (SimDev.sendIDRequest d iccidCommand).1 :=
          h'.congr (by simp) (by simp) (by simp) (by simp)
        dsimp only
        split
        · exact h2.congr rfl rfl rfl rfl
        · exact busy_act h2

theorem busy_work {p : Platform} {d : D} (h : Busy .receiving .serialError d) :
    Busy .receiving .serialError (work p d) := by
  unfold work
  dsimp only
  have h1 := h.fillLine (SimDev.lineStop d.rep)
  split
  · rename_i hf
    obtain ⟨h2, h3⟩ := h1.2 hf
    have h4 := busy_parseLine (p := p) h2 h3
    split
    · exact h4
    · exact busy_proceed h4
  · apply busy_proceed
    have h2 : Busy .receiving .serialError (SimDev.fillLineBuffer d).1 := h1.1
    unfold flushIfDisconnecting
    split
    · exact h2.flushReadBuffer
    · exact h2

theorem busy_run {p : Platform} {d : D} (ok : Bool) (h : Busy .receiving .serialError d) :
    Busy .receiving .serialError (run p d ok) := by
  unfold run
  split
  · unfold tryOpen
    split
    · exact h
    · intro hb
      obtain ⟨h1, h2, _⟩ := h hb
      exact ⟨h1, h2, Or.inr rfl⟩
  · split
    · exact h
    · split
      · apply Busy.of_zero
        rfl
      · exact busy_work h
end Sim7x00

namespace Sim800

theorem busy_parseLine {p : Platform} {d : D} (h : d.bytesToRead = 0) (hf : d.lbFill = 0) :
    Busy .receiving .serialError (parseLine p d).1 := by
  have hw : (parseWait d).bytesToRead = 0 := by
    unfold parseWait
    (repeat' split) <;> exact h
  unfold parseLine
  split
  · exact .of_zero h
  · dsimp only
    have hw' : (parseWait d).lbFill = 0 := by simpa using hf
    generalize parseWait d = e at hw hw'
    have h1 : Busy .receiving .serialError (parseReply p e) := by
      unfold parseReply
      split <;> (try dsimp only) <;> (repeat' split) <;> (try exact .of_zero (by simpa using hw))
      all_goals
        rename_i hr
        revert hr
        unfold SimDev.parseCiprxget2
        split
        all_goals
          intro hr
          first
            | (simp at hr; done)
            | exact .of_zero hw
            | exact fun _ => ⟨rfl, hw', Or.inl rfl⟩
    unfold checkState
    split
    · exact h1.congr (by simp) (by simp) (by simp) (by simp)
    · exact h1

theorem busy_act {d : D} (h : Busy .receiving .serialError d) :
    Busy .receiving .serialError (act d) := by
  by_cases hr : d.snd = .receiving
  · have e : act d = actReceiving d := by simp only [act, hr]
    rw [e]
    unfold actReceiving
    split
    · dsimp only
      split
      · exact h.receive.congr rfl rfl rfl rfl
      · exact h.receive
    · rename_i hb
      have hb' : d.bytesToRead = 0 := by omega
      split <;> exact .of_zero hb'
  · by_cases hs : d.snd = .serialError
    · have e : act d = d := by simp only [act, hs]
      rw [e]
      exact h
    · have h0 : d.bytesToRead = 0 := by
        apply Classical.byContradiction
        intro hb
        rcases (h hb).2.2 with h3 | h3
        · exact hr h3
        · exact hs h3
      apply Busy.of_zero
      unfold act
      split
      all_goals first
        | contradiction
        | (simp [h0]; done)
        | (unfold actCstt; dsimp only; (repeat' split) <;> simp [h0])
        | (unfold actCipstart; dsimp only; (repeat' split) <;> simp [h0])
        | (unfold actConnected; dsimp only; (repeat' split) <;> simp [h0])
        | (unfold actCiprxget2; dsimp only; (repeat' split) <;> simp [h0])
        | ((try dsimp only); (repeat' split) <;> simp [h0])

theorem busy_proceed {d : D} (h : Busy .receiving .serialError d) :
    Busy .receiving .serialError (proceed d) := by
  unfold proceed
  split
  · exact h
  · split
    · exact h
    · have h' : Busy .receiving .serialError d.askSpace := h
      generalize d.askSpace = d at h'
      unfold sendNext
      split
      · exact h'.congr (by simp) (by simp) (by simp) (by simp)
      · have h2 : Busy .receiving .serialError (SimDev.sendIDRequest d iccidCommand).1 :=
          h'.congr (by simp) (by simp) (by simp) (by simp)
        dsimp only
        split
        · exact h2.congr rfl rfl rfl rfl
        · exact busy_act h2

theorem busy_work {p : Platform} {d : D} (h : Busy .receiving .serialError d) :
    Busy .receiving .serialError (work p d) := by
  unfold work
  dsimp only
  have h1 := h.fillLine (SimDev.lineStop d.rep)
  split
  · rename_i hf
    obtain ⟨h2, h3⟩ := h1.2 hf
    have h4 := busy_parseLine (p := p) h2 h3
    split
    · exact h4
    · exact busy_proceed h4
  · apply busy_proceed
    have h2 : Busy .receiving .serialError (SimDev.fillLineBuffer d).1 := h1.1
    unfold flushIfDisconnecting
    split
    · exact h2.flushReadBuffer
    · exact h2

theorem busy_run {p : Platform} {d : D} (ok : Bool) (h : Busy .receiving .serialError d) :
    Busy .receiving .serialError (run p d ok) := by
  unfold run
  split
  · unfold tryOpen
    split
    · exact h
    · intro hb
      obtain ⟨h1, h2, _⟩ := h hb
      exact ⟨h1, h2, Or.inr rfl⟩
  · split
    · exact h
    · split
      · apply busy_work
        apply Busy.of_zero
        unfold handleReset
        dsimp only
        split <;> simp
      · exact busy_work h
end Sim800

namespace Espressif

theorem busy_parseLine {p : Platform} {d : D} (ht : d.typ = .tcp) (h : d.bytesToRead = 0)
    (hf : d.lbFill = 0) : Busy .receiving .serialError (parseLine p d).1 := by
  unfold parseLine
  split
  · exact .of_zero h
  · dsimp only
    have hw : (parseWait (parseSendFail d)).bytesToRead = 0 ∧
        (parseWait (parseSendFail d)).typ = .tcp := by
      unfold parseWait parseSendFail
      (repeat' split) <;> exact ⟨h, ht⟩
    have hw' : (parseWait (parseSendFail d)).lbFill = 0 := by simpa using hf
    generalize parseWait (parseSendFail d) = e at hw hw'
    obtain ⟨hw, ht'⟩ := hw
    have h1 : Busy .receiving .serialError (parseReply p e) ∧ (parseReply p e).typ = .tcp ∧
        ((parseReply p e).bytesToRead ≠ 0 → (parseReply p e).has b!"+CIPRECVDATA" = true) := by
      unfold parseReply
      split <;> (try dsimp only) <;> (repeat' split) <;>
        (try exact ⟨.of_zero (by simpa using hw), by simpa using ht', fun hb => absurd hw (by simpa using hb)⟩)
      all_goals
        rename_i hr
        revert hr
        unfold parseCiprecvdata
        split
        all_goals
          intro hr
          first
            | (simp at hr; done)
            | exact ⟨.of_zero hw, ht', fun hb => absurd hw hb⟩
            | exact ⟨fun _ => ⟨rfl, hw', Or.inl rfl⟩, ht', fun _ => by assumption⟩
    unfold checkState
    dsimp only
    rw [if_pos h1.2.1]
    split
    · split
      · exact h1.1.congr rfl rfl rfl rfl
      · split
        · exact h1.1.congr rfl rfl rfl rfl
        · split
          · rename_i hd
            apply Busy.of_zero
            apply Classical.byContradiction
            intro hb
            have h3 := (hasPrefix_iff _ _ (by decide)).mp (h1.2.2 hb)
            have h4 := (hasPrefix_iff _ _ (by decide)).mp hd
            exact absurd (List.prefix_of_prefix_length_le h3 h4 (by decide)) (by decide)
          · exact h1.1
    · exact h1.1

theorem busy_act {d : D} (h : Busy .receiving .serialError d) :
    Busy .receiving .serialError (act d) := by
  by_cases hr : d.snd = .receiving
  · have e : act d = actReceiving d := by simp only [act, hr]
    rw [e]
    unfold actReceiving
    split
    · dsimp only
      split
      · exact h.receive.congr rfl rfl rfl rfl
      · exact h.receive
    · rename_i hb
      have hb' : d.bytesToRead = 0 := by omega
      split <;> exact .of_zero hb'
  · by_cases hs : d.snd = .serialError
    · have e : act d = d := by simp only [act, hs]
      rw [e]
      exact h
    · have h0 : d.bytesToRead = 0 := by
        apply Classical.byContradiction
        intro hb
        rcases (h hb).2.2 with h3 | h3
        · exact hr h3
        · exact hs h3
      apply Busy.of_zero
      unfold act
      split
      all_goals first
        | contradiction
        | (simp [h0]; done)
        | (unfold actCwjap; dsimp only; (repeat' split) <;> simp [h0])
        | (unfold actCipstart; dsimp only; (repeat' split) <;> simp [h0])
        | (unfold actConnected; dsimp only; (repeat' split) <;> simp [h0])
        | (unfold actCiprecvdata; dsimp only; (repeat' split) <;> simp [h0])
        | ((try dsimp only); (repeat' split) <;> simp [h0])

theorem busy_proceed {p : Platform} {d : D} (h : Busy .receiving .serialError d) :
    Busy .receiving .serialError (proceed p d) := by
  unfold proceed
  split
  · exact h
  · split
    · exact h
    · have h' : Busy .receiving .serialError d.askSpace := h
      generalize d.askSpace = d at h'
      unfold sendNext
      split
      · exact h'.congr (by simp) (by simp) (by simp) (by simp)
      · split
        · exact h'.congr (by simp) (by simp) (by simp) (by simp)
        · exact busy_act h'

theorem busy_work {p : Platform} {d : D} (ht : d.typ = .tcp) (h : Busy .receiving .serialError d) :
    Busy .receiving .serialError (work p d) := by
  unfold work
  dsimp only
  have h1 := h.fillLine (lineStop d.typ d.rep)
  split
  · rename_i hf
    obtain ⟨h2, h3⟩ := h1.2 hf
    have h4 := busy_parseLine (p := p) (by simpa using ht) h2 h3
    split
    · exact h4
    · exact busy_proceed h4
  · apply busy_proceed
    have h2 : Busy .receiving .serialError (fillLineBuffer d).1 := h1.1
    unfold flushIfDisconnecting
    split
    · exact h2.flushReadBuffer
    · exact h2

theorem busy_run {p : Platform} {d : D} (ht : d.typ = .tcp) (ok : Bool) (h : Busy .receiving .serialError d) :
    Busy .receiving .serialError (run p d ok) := by
  unfold run
  split
  · unfold tryOpen
    split
    · exact h
    · intro hb
      obtain ⟨h1, h2, _⟩ := h hb
      exact ⟨h1, h2, Or.inr rfl⟩
  · split
    · apply Busy.of_zero
      rfl
    · exact busy_work ht h
end Espressif

namespace CC1352P7

theorem busy_parseLine {p : Platform} {d : D} (h : d.bytesToRead = 0) (hf : d.lbFill = 0) :
    Busy .receiving .serialError (parseLine p d).1 := by
  have hw : (parseWait d).bytesToRead = 0 := by
    unfold parseWait
    (repeat' split) <;> exact h
  unfold parseLine
  split
  · exact .of_zero h
  · dsimp only
    have hw' : (parseWait d).lbFill = 0 := by simpa using hf
    generalize parseWait d = e at hw hw'
    have h1 : Busy .receiving .serialError (parseReply p e) := by
      unfold parseReply
      split <;> (try dsimp only) <;> (repeat' split) <;> (try exact .of_zero (by simpa using hw))
      all_goals
        rename_i hr
        revert hr
        unfold parseCiprecvdata
        split
        all_goals
          intro hr
          first
            | (simp at hr; done)
            | exact .of_zero hw
            | exact fun _ => ⟨rfl, hw', Or.inl rfl⟩
    unfold checkState
    (repeat' split) <;> first | exact h1 | exact h1.congr rfl rfl rfl rfl

theorem busy_act {d : D} (h : Busy .receiving .serialError d) :
    Busy .receiving .serialError (act d) := by
  by_cases hr : d.snd = .receiving
  · have e : act d = actReceiving d := by simp only [act, hr]
    rw [e]
    unfold actReceiving
    split
    · dsimp only
      split
      · exact h.receive.congr rfl rfl rfl rfl
      · exact h.receive
    · rename_i hb
      have hb' : d.bytesToRead = 0 := by omega
      split <;> exact .of_zero hb'
  · by_cases hs : d.snd = .serialError
    · have e : act d = d := by simp only [act, hs]
      rw [e]
      exact h
    · have h0 : d.bytesToRead = 0 := by
        apply Classical.byContradiction
        intro hb
        rcases (h hb).2.2 with h3 | h3
        · exact hr h3
        · exact hs h3
      apply Busy.of_zero
      unfold act
      split
      all_goals first
        | contradiction
        | (simp [h0]; done)
        | (unfold actCipstart; dsimp only; (repeat' split) <;> simp [h0])
        | (unfold actConnected; dsimp only; (repeat' split) <;> simp [h0])
        | (unfold actCiprecvdata; dsimp only; (repeat' split) <;> simp [h0])
        | ((try dsimp only); (repeat' split) <;> simp [h0])

theorem busy_proceed {p : Platform} {d : D} (h : Busy .receiving .serialError d) :
    Busy .receiving .serialError (proceed p d) := by
  unfold proceed
  split
  · exact h
  · split
    · exact h
    · have h' : Busy .receiving .serialError d.askSpace := h
      generalize d.askSpace = d at h'
      unfold sendNext
      split
      · exact h'.congr (by simp) (by simp) (by simp) (by simp)
      · split
        · exact h'.congr (by simp) (by simp) (by simp) (by simp)
        · exact busy_act h'

theorem busy_work {p : Platform} {d : D} (h : Busy .receiving .serialError d) :
    Busy .receiving .serialError (work p d) := by
  unfold work
  dsimp only
  have h1 := h.fillLine (lineStop d.rep)
  split
  · rename_i hf
    obtain ⟨h2, h3⟩ := h1.2 hf
    have h4 := busy_parseLine (p := p) h2 h3
    split
    · exact h4
    · exact busy_proceed h4
  · apply busy_proceed
    have h2 : Busy .receiving .serialError (fillLineBuffer d).1 := h1.1
    unfold flushIfDisconnecting
    split
    · exact h2.flushReadBuffer
    · exact h2

theorem busy_run {p : Platform} {d : D} (ok : Bool) (h : Busy .receiving .serialError d) :
    Busy .receiving .serialError (run p d ok) := by
  unfold run
  split
  · unfold tryOpen
    split
    · exact h
    · intro hb
      obtain ⟨h1, h2, _⟩ := h hb
      exact ⟨h1, h2, Or.inr rfl⟩
  · split
    · apply busy_work
      apply Busy.of_zero
      unfold handleReset
      dsimp only
      split <;> simp
    · exact busy_work h
end CC1352P7
end Verif
