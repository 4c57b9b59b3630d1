import Verif.Lemmas.Turn

/-! One turn of the SIM800 driver. -/

namespace Verif

namespace Sim800

open Dev Spec

/-- Arguments of the send command for `n` bytes: channel, amount, line end. -/
def sendArgs (n : Nat) (args : List (List Byte)) : Prop := args = [b!"0,", dec5 n, b!"\r\n"]


theorem said_cipstart (d : D) : Said d b!"AT+CIPSTART" (actCipstart d) := by
  unfold actCipstart
  dsimp only
  have h : Said d b!"AT+CIPSTART" (if (d.cmd b!"AT+CIPSTART").typ = .udp
      then (d.cmd b!"AT+CIPSTART").arg b!"=0,\"UDP\",\""
      else (d.cmd b!"AT+CIPSTART").arg b!"=0,\"TCP\",\"") := by
    split <;> exact (said_cmd d _).arg _
  generalize (if (d.cmd b!"AT+CIPSTART").typ = .udp
      then (d.cmd b!"AT+CIPSTART").arg b!"=0,\"UDP\",\""
      else (d.cmd b!"AT+CIPSTART").arg b!"=0,\"TCP\",\"") = e at h ⊢
  exact ((((h.arg _).arg _).arg _).arg _).set rfl ⟨rfl, rfl, rfl, rfl, rfl, rfl⟩

/-- Commands whose answer is awaited by the reply state alone. -/
def special (k : Option (List Byte)) (r : Rep) : Prop :=
  (k = some b!"AT+CIPRXGET=2,0," ∧ r = .ciprxget2) ∨ (k = some b!"AT+CIFSR" ∧ r = .cifsr)

/-- The driver waits for the answer to `k`. -/
abbrev Waiting : Option (List Byte) → D → Prop := Waits repliesSim800 special

theorem act_turn (d : D) : Turn .sendData .receiving sendArgs Waiting d (act d) := by
  cases hsnd : d.snd
  case notConnected =>
    refine .quiet ?_ ?_ ⟨?_, ?_, ?_, ?_, ?_, ?_⟩ <;> simp only [act, hsnd] <;>
      cases hk : d.connectPending <;> simp [handleConnect, hk, hsnd]
  case connecting =>
    exact .of_sendCommand (w := b!"ATE0") (by simp only [act, hsnd]) (by decide)
      (by simp [act, hsnd]) (.inl ⟨okStr, by decide, by simp [act, hsnd]⟩)
  case sendCiprxget =>
    exact .of_sendCommand (w := b!"AT+CIPRXGET=1") (by simp only [act, hsnd]) (by decide)
      (by simp [act, hsnd]) (.inl ⟨okStr, by decide, by simp [act, hsnd]⟩)
  case sendCipmux =>
    exact .of_sendCommand (w := b!"AT+CIPMUX=1") (by simp only [act, hsnd]) (by decide)
      (by simp [act, hsnd]) (.inl ⟨okStr, by decide, by simp [act, hsnd]⟩)
  case sendCstt =>
    refine .of_said (w := b!"AT+CSTT=\"") ?_ (by decide) (by simp [act, hsnd, actCstt]) (.inl ⟨okStr, by decide, by simp [act, hsnd, actCstt]⟩)
    simp only [act, hsnd, actCstt]
    refine Said.set (((said_cmdN _ _).arg _).arg _ |>.pre (d0 := d) ?_ ?_) rfl ⟨rfl, rfl, rfl, rfl, rfl, rfl⟩
    · split <;> rfl
    · split <;> exact ⟨rfl, rfl, rfl, rfl, rfl, rfl⟩
  case sendCiicr =>
    exact .of_sendCommand (w := b!"AT+CIICR") (by simp only [act, hsnd]) (by decide)
      (by simp [act, hsnd]) (.inl ⟨okStr, by decide, by simp [act, hsnd]⟩)
  case sendCifsr =>
    cases hd : d.disconnectPending
    · refine .of_said (w := b!"AT+CIFSR") ?_ (by decide) (by simp [act, hsnd, hd]) (.inr (.inr ⟨rfl, by simp [act, hsnd, hd]⟩))
      simp only [act, hsnd, hd, Bool.false_eq_true, if_false]
      exact ((said_cmdN d _).arg _).set rfl ⟨rfl, rfl, rfl, rfl, rfl, rfl⟩
    · refine .quiet ?_ ?_ ⟨?_, ?_, ?_, ?_, ?_, ?_⟩ <;> simp [act, hsnd, hd, handleDisconnect]
  case sendDnsQuery =>
    by_cases hq : d.sendDnsQuery.2 = true
    · refine .of_said (w := b!"AT+CDNSGIP=\"") ?_ (by decide) (by simp [act, hsnd, hq]) (.inl ⟨okStr, by decide, by simp [act, hsnd, hq]⟩)
      simp only [act, hsnd, if_pos hq]
      exact (said_sendDnsQuery hq).set rfl ⟨rfl, rfl, rfl, rfl, rfl, rfl⟩
    · have := SimDev.sendDnsQuery_false (d := d) (by simpa using hq)
      refine .quiet ?_ ?_ ⟨?_, ?_, ?_, ?_, ?_, ?_⟩ <;> simp only [act, hsnd, if_neg hq] <;> simp [this, hsnd]
  case sendCipstart =>
    have e : act d = actCipstart d := by simp only [act, hsnd]
    rw [e]
    exact .of_said (w := b!"AT+CIPSTART") (said_cipstart d) (by decide) (by simp [actCipstart]) (.inl ⟨b!"0, CONNECT OK", by decide, by simp [actCipstart]⟩)
  case finalizeConnect =>
    refine .quiet ?_ ?_ ⟨?_, ?_, ?_, ?_, ?_, ?_⟩ <;> simp [act, hsnd]
  case connected =>
    have e : act d = actConnected d := by simp only [act, hsnd]
    rw [e]
    unfold actConnected
    split
    · dsimp only
      by_cases hq : (d.prepareSending true).2 = true
      · rw [if_pos hq]
        obtain ⟨h1, h2, _⟩ := prepareSending_true hq
        obtain ⟨h3, h4⟩ := prepareSending_full hq
        have h5 := (arg_full (d.prepareSending true).1 lineEnd (by decide) h4).1
        refine .send [.arg b!"0," b!"0,", .arg (dec5 d.sendAmount) (dec5 d.sendAmount),
          .arg lineEnd lineEnd] ?_ rfl (by simp [h1]) rfl (by simp [h2]) (by simp) rfl
          (by constructor <;> simp)
        simp only [h5, h3]
        simp
      · rw [if_neg hq]
        have := prepareSending_trace_false (by simpa using hq)
        refine .quiet this.1 ?_ ⟨?_, ?_, ?_, ?_, ?_, ?_⟩ <;> simp [this.2.1, hsnd]
    · split
      · refine .quiet ?_ ?_ ⟨?_, ?_, ?_, ?_, ?_, ?_⟩ <;> simp
      · cases hi : d.ipConnected <;> cases hd : d.disconnectPending <;>
          refine .quiet ?_ ?_ ⟨?_, ?_, ?_, ?_, ?_, ?_⟩ <;> simp [handleDisconnect, hd, hsnd]
  case sendData =>
    exact .pay hsnd (by simp only [act, hsnd]; rfl) (by simp only [act, hsnd]; rfl)
      (by simp [act, hsnd]) (by simp only [act, hsnd]; exact ⟨rfl, rfl, rfl, rfl, rfl, rfl⟩)
      (.inl ⟨b!"0, SEND OK", by decide, by simp [act, hsnd]⟩)
  case sendCiprxget4 =>
    exact .of_sendCommand (w := b!"AT+CIPRXGET=4,0") (by simp only [act, hsnd]) (by decide)
      (by simp [act, hsnd]) (.inl ⟨okStr, by decide, by simp [act, hsnd]⟩)
  case sendCiprxget2 =>
    have e : act d = actCiprxget2 d := by simp only [act, hsnd]
    rw [e]
    unfold actCiprxget2
    cases hd : d.disconnectPending
    · simp only [Bool.false_eq_true, if_false]
      split
      · by_cases hq : (d.sendCiprxget2).2 = true
        · rw [if_pos hq]
          refine .of_said (w := b!"AT+CIPRXGET=2,0,") ?_ (by decide) (by simp) (.inr (.inl ⟨rfl, rfl⟩))
          exact (said_sendCiprxget2 hq).set rfl ⟨rfl, rfl, rfl, rfl, rfl, rfl⟩
        · rw [if_neg hq]
          have := SimDev.sendCiprxget2_false (d := d) (by simpa using hq)
          refine .quiet ?_ ?_ ⟨?_, ?_, ?_, ?_, ?_, ?_⟩ <;> simp [this, hsnd]
      · split <;> refine .quiet ?_ ?_ ⟨?_, ?_, ?_, ?_, ?_, ?_⟩ <;> simp
    · refine .quiet ?_ ?_ ⟨?_, ?_, ?_, ?_, ?_, ?_⟩ <;> simp [handleDisconnect, hd]
  case waitReceive =>
    have e : act d = d := by simp only [act, hsnd]
    rw [e]; exact .quiet rfl (by simp [hsnd]) (Keep.refl d)
  case receiving =>
    have e : act d = actReceiving d := by simp only [act, hsnd]
    rw [e]
    unfold actReceiving
    split
    · rename_i hpos
      dsimp only
      by_cases hq : d.receive.2 = true
      · rw [if_pos hq]
        exact .data hsnd hq hpos rfl rfl (receive_true hq).2.2.1 (by simp [hsnd]) (receive_true hq).2.1
          (by constructor <;> simp)
      · rw [if_neg hq]
        have := receive_trace_false (d := d) (by simpa using hq)
        refine .quiet this.1 ?_ ⟨?_, ?_, ?_, ?_, ?_, ?_⟩ <;> simp [this.2.1, this.2.2.1, hsnd]
    · split <;> refine .quiet ?_ ?_ ⟨?_, ?_, ?_, ?_, ?_, ?_⟩ <;> simp
  case ipUnconnected =>
    cases hd : d.disconnectPending <;> cases hk : d.connectPending <;>
      refine .quiet ?_ ?_ ⟨?_, ?_, ?_, ?_, ?_, ?_⟩ <;> 
      simp [act, hsnd, hd, hk, handleConnect, handleDisconnect]
  case sendCipclose =>
    cases hi : d.ipConnected
    · refine .quiet ?_ ?_ ⟨?_, ?_, ?_, ?_, ?_, ?_⟩ <;> simp [act, hsnd, hi]
    · exact .of_sendCommand (w := b!"AT+CIPCLOSE=0") (by simp [act, hsnd, hi]) (by decide)
        (by simp [act, hsnd, hi]) (.inl ⟨b!"0, CLOSE OK", by decide, by simp [act, hsnd, hi]⟩)
  case sendCipshut =>
    exact .of_sendCommand (w := b!"AT+CIPSHUT") (by simp only [act, hsnd]) (by decide)
      (by simp [act, hsnd]) (.inl ⟨b!"SHUT OK", by decide, by simp [act, hsnd]⟩)
  case finalizeDisconnect =>
    refine .quiet ?_ ?_ ⟨?_, ?_, ?_, ?_, ?_, ?_⟩ <;> simp [act, hsnd]
  case serialError =>
    have e : act d = d := by simp only [act, hsnd]
    rw [e]; exact .quiet rfl (by simp [hsnd]) (Keep.refl d)
  case sendCipsprt =>
    have e : act d = d := by simp only [act, hsnd]
    rw [e]; exact .quiet rfl (by simp [hsnd]) (Keep.refl d)

end Sim800
end Verif
