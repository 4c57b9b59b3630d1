import Verif.Lemmas.Turn

/-! One turn of the Espressif driver. -/

namespace Verif

namespace Espressif

open Dev Spec

/-- Arguments of the send command for `n` bytes: amount, line end. -/
def sendArgs (n : Nat) (args : List (List Byte)) : Prop := args = [dec5 n, b!"\r\n"]

theorem said_sendCiprcvdata {d : D} (h : (sendCiprcvdata d).2 = true) :
    Said d b!"AT+CIPRECVDATA=" (sendCiprcvdata d).1 := by
  obtain ⟨g1, g2, g3, ht⟩ := sendCiprcvdata_true h
  exact ⟨⟨g1, [.arg (dec (askAmount d)) g2, .arg lineEnd g3], by rw [ht]; simp, rfl⟩,
    by constructor <;> simp⟩

/-- Commands whose answer is awaited by the reply state alone. -/
def special (k : Option (List Byte)) (r : Rep) : Prop :=
  k = some b!"AT+CIPRECVDATA=" ∧ (r = .waitCiprecvdata ∨ r = .parseStateCiprecvdata)

/-- The driver waits for the answer to `k`. -/
abbrev Waiting : Option (List Byte) → D → Prop := Waits repliesEspressif special

theorem act_turn (d : D) : Turn .sendDataState .receiving sendArgs Waiting d (act d) := by
  cases hsnd : d.snd
  case notConnected =>
    refine .quiet ?_ ?_ ⟨?_, ?_, ?_, ?_, ?_, ?_⟩ <;> simp only [act, hsnd] <;>
      cases hk : d.connectPending <;> simp [handleConnect, hk, hsnd]
  case connecting =>
    exact .of_sendCommand (w := b!"ATE0") (by simp only [act, hsnd]) (by decide)
      (by simp [act, hsnd]) (.inl ⟨okStr, by decide, by simp [act, hsnd]⟩)
  case sendCwmode =>
    exact .of_sendCommand (w := b!"AT+CWMODE=1") (by simp only [act, hsnd]; rfl) (by decide)
      (by simp [act, hsnd]) (.inl ⟨okStr, by decide, by simp [act, hsnd]⟩)
  case sendCwjap =>
    refine .of_said (w := b!"AT+CWJAP=\"") ?_ (by decide) (by simp [act, hsnd, actCwjap]) (.inl ⟨okStr, by decide, by simp [act, hsnd, actCwjap]⟩)
    simp only [act, hsnd, actCwjap]
    exact (((((said_cmd d _).argN _).arg _).argN _).arg _).set rfl ⟨rfl, rfl, rfl, rfl, rfl, rfl⟩
  case sendCipmux =>
    exact .of_sendCommand (w := b!"AT+CIPMUX=0") (by simp only [act, hsnd]) (by decide)
      (by simp [act, hsnd]) (.inl ⟨okStr, by decide, by simp [act, hsnd]⟩)
  case sendCiprecvmode =>
    refine .of_sendCommand (w := if d.typ = .tcp then b!"AT+CIPRECVMODE=1" else b!"AT+CIPRECVMODE=0")
      (by simp only [act, hsnd]) ?_ (by simp [act, hsnd]) (.inl ⟨okStr, ?_, by simp [act, hsnd]⟩) <;>
    split <;> decide
  case sendCipmode =>
    exact .of_sendCommand (w := b!"AT+CIPMODE=0") (by simp only [act, hsnd]) (by decide)
      (by simp [act, hsnd]) (.inl ⟨okStr, by decide, by simp [act, hsnd]⟩)
  case sendCipstart =>
    refine .of_said (w := b!"AT+CIPSTART") ?_ (by decide) (by simp [act, hsnd, actCipstart]) (.inl ⟨okStr, by decide, by simp [act, hsnd, actCipstart]⟩)
    simp only [act, hsnd, actCipstart]
    refine Said.set ((((((said_cmd _ _).arg _).arg _).arg _).arg _).arg _ |>.pre (d0 := d) ?_ ?_) rfl ⟨rfl, rfl, rfl, rfl, rfl, rfl⟩
    · split <;> rfl
    · split <;> exact ⟨rfl, rfl, rfl, rfl, rfl, rfl⟩
  case finalizeConnect =>
    refine .quiet ?_ ?_ ⟨?_, ?_, ?_, ?_, ?_, ?_⟩ <;> simp [act, hsnd]
  case connected =>
    have e : act d = actConnected d := by simp only [act, hsnd]
    rw [e]
    unfold actConnected
    split
    · dsimp only
      by_cases hq : (d.prepareSending false).2 = true
      · rw [if_pos hq]
        obtain ⟨h1, h2, _⟩ := prepareSending_true hq
        obtain ⟨h3, h4⟩ := prepareSending_full hq
        have h5 := (arg_full (d.prepareSending false).1 lineEnd (by decide) h4).1
        refine .send [.arg (dec5 d.sendAmount) (dec5 d.sendAmount),
          .arg lineEnd lineEnd] ?_ rfl (by simp [h1]) rfl (by simp [h2]) (by simp) rfl
          (by constructor <;> simp)
        simp only [h5, h3]
        simp
      · rw [if_neg hq]
        have := prepareSending_trace_false (by simpa using hq)
        refine .quiet this.1 ?_ ⟨?_, ?_, ?_, ?_, ?_, ?_⟩ <;> simp [this.2.1, hsnd]
    · split
      · refine .quiet ?_ ?_ ⟨?_, ?_, ?_, ?_, ?_, ?_⟩ <;> simp <;> split <;> simp
      · cases hi : d.ipConnected <;> cases hd : d.disconnectPending <;>
          refine .quiet ?_ ?_ ⟨?_, ?_, ?_, ?_, ?_, ?_⟩ <;> simp [handleDisconnect, hd, hsnd]
  case sendDataState =>
    exact .pay hsnd (by simp only [act, hsnd]; rfl) (by simp only [act, hsnd]; rfl)
      (by simp [act, hsnd]) (by simp only [act, hsnd]; exact ⟨rfl, rfl, rfl, rfl, rfl, rfl⟩)
      (.inl ⟨b!"SEND OK", by decide, by simp [act, hsnd]⟩)
  case sendCiprecvdata =>
    have e : act d = actCiprecvdata d := by simp only [act, hsnd]
    rw [e]
    unfold actCiprecvdata
    cases hd : d.disconnectPending
    · simp only [Bool.false_eq_true, if_false]
      split
      · by_cases hq : (sendCiprcvdata d).2 = true
        · rw [if_pos hq]
          refine .of_said (w := b!"AT+CIPRECVDATA=") ?_ (by decide) (by simp) (.inr ⟨rfl, .inl rfl⟩)
          exact (said_sendCiprcvdata hq).set rfl ⟨rfl, rfl, rfl, rfl, rfl, rfl⟩
        · rw [if_neg hq]
          have := sendCiprcvdata_false (d := d) (by simpa using hq)
          refine .quiet ?_ ?_ ⟨?_, ?_, ?_, ?_, ?_, ?_⟩ <;> simp [this, hsnd]
      · refine .quiet ?_ ?_ ⟨?_, ?_, ?_, ?_, ?_, ?_⟩ <;> simp
    · refine .quiet ?_ ?_ ⟨?_, ?_, ?_, ?_, ?_, ?_⟩ <;> simp [handleDisconnect, hd]
  case waitReceive =>
    have e : act d = d := by simp only [act, hsnd]
    rw [e]; exact .quiet rfl (by simp [hsnd]) (Keep.refl d)
  case receiving =>
    have e : act d = actReceiving d := by simp only [act, hsnd]
    rw [e]
    unfold actReceiving
    split
    · rename_i hpos
      dsimp only
      by_cases hq : d.receive.2 = true
      · cases ht : decide (d.receive.1.typ = .tcp)
        · rw [if_neg (by simpa [hq] using ht)]
          exact .data hsnd hq hpos rfl rfl (receive_true hq).2.2.1 (by simp [hsnd])
            (receive_true hq).2.1 (by constructor <;> simp)
        · rw [if_pos ⟨hq, by simpa using ht⟩]
          exact .data hsnd hq hpos rfl rfl (receive_true hq).2.2.1 (by simp [hsnd])
            (receive_true hq).2.1 (by constructor <;> simp)
      · rw [if_neg (fun x => hq x.1)]
        have := receive_trace_false (d := d) (by simpa using hq)
        refine .quiet this.1 ?_ ⟨?_, ?_, ?_, ?_, ?_, ?_⟩ <;> simp [this.2.1, this.2.2.1, hsnd]
    · split <;> refine .quiet ?_ ?_ ⟨?_, ?_, ?_, ?_, ?_, ?_⟩ <;> simp
  case sendCipclose =>
    cases hi : d.ipConnected
    · refine .quiet ?_ ?_ ⟨?_, ?_, ?_, ?_, ?_, ?_⟩ <;> simp [act, hsnd, hi]
    · exact .of_sendCommand (w := b!"AT+CIPCLOSE") (by simp [act, hsnd, hi]) (by decide)
        (by simp [act, hsnd, hi]) (.inl ⟨okStr, by decide, by simp [act, hsnd, hi]⟩)
  case sendCwqap =>
    exact .of_sendCommand (w := b!"AT+CWQAP") (by simp only [act, hsnd]) (by decide)
      (by simp [act, hsnd]) (.inl ⟨b!"WIFI DISCONNECT", by decide, by simp [act, hsnd]⟩)
  case finalizeDisconnect =>
    refine .quiet ?_ ?_ ⟨?_, ?_, ?_, ?_, ?_, ?_⟩ <;> simp [act, hsnd]
  case serialError =>
    have e : act d = d := by simp only [act, hsnd]
    rw [e]; exact .quiet rfl (by simp [hsnd]) (Keep.refl d)

end Espressif
end Verif
