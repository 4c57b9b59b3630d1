import Verif.Lemmas.Turn

/-! One turn of the SIM7x00 driver. -/

namespace Verif

namespace Sim7x00

open Dev Spec

/-- Arguments of the send command for `n` bytes: channel, amount, for UDP address and port, line end. -/
def sendArgs (n : Nat) (args : List (List Byte)) : Prop :=
  ∃ more, args = b!"0," :: dec5 n :: more ∧ (more = [b!"\r\n"] ∨ more.length = 5)

/-- Commands whose answer is awaited by the reply state alone. -/
def special (k : Option (List Byte)) (r : Rep) : Prop :=
  k = some b!"AT+CIPRXGET=2,0," ∧ r = .ciprxget2

/-- The driver waits for the answer to `k`. -/
abbrev Waiting : Option (List Byte) → D → Prop := Waits repliesSim7x00 special

theorem act_turn (d : D) : Turn .sendData .receiving sendArgs Waiting d (act d) := by
  cases hsnd : d.snd
  case notConnected =>
    refine .quiet ?_ ?_ ⟨?_, ?_, ?_, ?_, ?_, ?_⟩ <;> simp only [act, hsnd] <;>
      cases hk : d.connectPending <;> simp [handleConnect, hk, hsnd]
  case connecting =>
    exact .of_sendCommand (w := b!"ATE0") (by simp only [act, hsnd]) (by decide) (by simp [act, hsnd]) (.inl ⟨okStr, by decide, by simp [act, hsnd]⟩)
  case sendCgsockcont =>
    refine .of_said (w := b!"AT+CGSOCKCONT=1,\"IP\",\"") ?_ (by decide) (by simp [act, hsnd, actCgsockcont]) (.inl ⟨okStr, by decide, by simp [act, hsnd, actCgsockcont]⟩)
    simp only [act, hsnd, actCgsockcont]
    refine Said.set (((said_cmdN _ _).argN _).arg _ |>.pre (d0 := d) ?_ ?_) rfl ⟨rfl, rfl, rfl, rfl, rfl, rfl⟩
    · split <;> rfl
    · split <;> exact ⟨rfl, rfl, rfl, rfl, rfl, rfl⟩
  case sendCsocksetpn =>
    exact .of_sendCommand (w := b!"AT+CSOCKSETPN=1") (by simp only [act, hsnd]) (by decide)
      (by simp [act, hsnd]) (.inl ⟨okStr, by decide, by simp [act, hsnd]⟩)
  case sendCipmode =>
    exact .of_sendCommand (w := b!"AT+CIPMODE=0") (by simp only [act, hsnd]) (by decide)
      (by simp [act, hsnd]) (.inl ⟨okStr, by decide, by simp [act, hsnd]⟩)
  case sendNetopen =>
    cases hd : d.disconnectPending
    · exact .of_sendCommand (w := b!"AT+NETOPEN") (by simp [act, hsnd, hd]) (by decide)
        (by simp [act, hsnd, hd]) (.inl ⟨b!"+NETOPEN: 0", by decide, by simp [act, hsnd, hd]⟩)
    · refine .quiet ?_ ?_ ⟨?_, ?_, ?_, ?_, ?_, ?_⟩ <;> simp [act, hsnd, hd, handleDisconnect]
  case sendCiprxget =>
    exact .of_sendCommand (w := b!"AT+CIPRXGET=1") (by simp only [act, hsnd]) (by decide)
      (by simp [act, hsnd]) (.inl ⟨okStr, by decide, by simp [act, hsnd]⟩)
  case sendDnsQuery =>
    by_cases hq : d.sendDnsQuery.2 = true
    · refine .of_said (w := b!"AT+CDNSGIP=\"") ?_ (by decide) (by simp [act, hsnd, hq]) (.inl ⟨okStr, by decide, by simp [act, hsnd, hq]⟩)
      simp only [act, hsnd, if_pos hq]
      exact (said_sendDnsQuery hq).set rfl ⟨rfl, rfl, rfl, rfl, rfl, rfl⟩
    · have := SimDev.sendDnsQuery_false (d := d) (by simpa using hq)
      refine .quiet ?_ ?_ ⟨?_, ?_, ?_, ?_, ?_, ?_⟩ <;> simp only [act, hsnd, if_neg hq] <;> simp [this, hsnd]
  case sendCipopen =>
    refine .of_said (w := b!"AT+CIPOPEN") ?_ (by decide) (by simp [act, hsnd, actCipopen]) (.inl ⟨b!"+CIPOPEN: 0,0", by decide, by simp [act, hsnd, actCipopen]⟩)
    simp only [act, hsnd, actCipopen]
    split
    · exact ((((said_cmd d _).arg _).arg _).arg _).set rfl ⟨rfl, rfl, rfl, rfl, rfl, rfl⟩
    · exact ((((((said_cmd d _).arg _).arg _).arg _).arg _).arg _).set rfl ⟨rfl, rfl, rfl, rfl, rfl, rfl⟩
  case finalizeConnect =>
    refine .quiet ?_ ?_ ⟨?_, ?_, ?_, ?_, ?_, ?_⟩ <;> simp [act, hsnd]
  case connected =>
    have e : act d = actConnected d := by simp only [act, hsnd]
    rw [e]
    unfold actConnected
    split
    · dsimp only
      by_cases hq : (d.prepareSending true).2 = true
      · rw [if_pos hq]
        obtain ⟨h1, h2, _⟩ := prepareSending_true hq
        obtain ⟨h3, h4⟩ := prepareSending_full hq
        simp only [if_true] at h3
        by_cases hu : (d.prepareSending true).1.typ = .udp
        · rw [if_pos hu]
          refine .send [.arg b!"0," b!"0,", .arg (dec5 d.sendAmount) (dec5 d.sendAmount), .arg _ _,
            .arg _ _, .arg _ _, .arg _ _, .arg _ _]
            (by simp only [Dev.arg_trace, h3, List.append_assoc]; rfl) rfl (by simp [h1])
            ⟨_, rfl, Or.inr rfl⟩ (by simp [h2]) (by simp) rfl (by constructor <;> simp)
        · rw [if_neg hu]
          have h5 := (arg_full (d.prepareSending true).1 lineEnd (by decide) h4).1
          refine .send [.arg b!"0," b!"0,", .arg (dec5 d.sendAmount) (dec5 d.sendAmount),
            .arg lineEnd lineEnd] ?_ rfl (by simp [h1]) ⟨_, rfl, Or.inl rfl⟩ (by simp [h2]) (by simp) rfl
            (by constructor <;> simp)
          simp only [h5, h3]
          simp
      · rw [if_neg hq]
        have := prepareSending_trace_false (by simpa using hq)
        refine .quiet this.1 ?_ ⟨?_, ?_, ?_, ?_, ?_, ?_⟩ <;> simp [this.2.1, hsnd]
    · split
      · refine .quiet ?_ ?_ ⟨?_, ?_, ?_, ?_, ?_, ?_⟩ <;> simp
      · cases hd : d.disconnectPending <;> refine .quiet ?_ ?_ ⟨?_, ?_, ?_, ?_, ?_, ?_⟩ <;>
          simp [handleDisconnect, hd, hsnd]
  case sendData =>
    exact .pay hsnd (by simp only [act, hsnd]; rfl) (by simp only [act, hsnd]; rfl)
      (by simp [act, hsnd]) (by simp only [act, hsnd]; exact ⟨rfl, rfl, rfl, rfl, rfl, rfl⟩)
      (.inl ⟨okStr, by decide, by simp [act, hsnd]⟩)
  case sendCiprxget4 =>
    exact .of_sendCommand (w := b!"AT+CIPRXGET=4,0") (by simp only [act, hsnd]) (by decide)
      (by simp [act, hsnd]) (.inl ⟨okStr, by decide, by simp [act, hsnd]⟩)
  case sendCiprxget2 =>
    have e : act d = actCiprxget2 d := by simp only [act, hsnd]
    rw [e]
    unfold actCiprxget2
    cases hd : d.disconnectPending
    · simp only [Bool.false_eq_true, if_false]
      split
      · by_cases hq : d.sendCiprxget2.2 = true
        · rw [if_pos hq]
          refine .of_said (w := b!"AT+CIPRXGET=2,0,") ?_ (by decide) (by simp) (.inr ⟨rfl, rfl⟩)
          exact (said_sendCiprxget2 hq).set rfl ⟨rfl, rfl, rfl, rfl, rfl, rfl⟩
        · rw [if_neg hq]
          have := SimDev.sendCiprxget2_false (d := d) (by simpa using hq)
          refine .quiet ?_ ?_ ⟨?_, ?_, ?_, ?_, ?_, ?_⟩ <;> simp [this, hsnd]
      · split <;> refine .quiet ?_ ?_ ⟨?_, ?_, ?_, ?_, ?_, ?_⟩ <;> simp
    · refine .quiet ?_ ?_ ⟨?_, ?_, ?_, ?_, ?_, ?_⟩ <;> simp [handleDisconnect, hd]
  case waitReceive =>
    have e : act d = d := by simp only [act, hsnd]
    rw [e]; exact .quiet rfl (by simp [hsnd]) (Keep.refl d)
  case receiving =>
    have e : act d = actReceiving d := by simp only [act, hsnd]
    rw [e]
    unfold actReceiving
    split
    · rename_i hpos
      dsimp only
      by_cases hq : d.receive.2 = true
      · rw [if_pos hq]
        exact .data hsnd hq hpos rfl rfl (receive_true hq).2.2.1 (by simp [hsnd]) (receive_true hq).2.1
          (by constructor <;> simp)
      · rw [if_neg hq]
        have := receive_trace_false (d := d) (by simpa using hq)
        refine .quiet this.1 ?_ ⟨?_, ?_, ?_, ?_, ?_, ?_⟩ <;> simp [this.2.1, this.2.2.1, hsnd]
    · split <;> refine .quiet ?_ ?_ ⟨?_, ?_, ?_, ?_, ?_, ?_⟩ <;> simp
  case ipUnconnected =>
    cases hd : d.disconnectPending <;> cases hk : d.connectPending <;>
      refine .quiet ?_ ?_ ⟨?_, ?_, ?_, ?_, ?_, ?_⟩ <;>
      simp [act, hsnd, hd, hk, handleConnect, handleDisconnect]
  case sendNetclose =>
    exact .of_sendCommand (w := b!"AT+NETCLOSE") (by simp only [act, hsnd]) (by decide)
      (by simp [act, hsnd]) (.inl ⟨b!"+NETCLOSE: 0", by decide, by simp [act, hsnd]⟩)
  case finalizeDisconnect =>
    refine .quiet ?_ ?_ ⟨?_, ?_, ?_, ?_, ?_, ?_⟩ <;> simp [act, hsnd]
  case serialError =>
    have e : act d = d := by simp only [act, hsnd]
    rw [e]; exact .quiet rfl (by simp [hsnd]) (Keep.refl d)
  case dnsError =>
    have e : act d = d := by simp only [act, hsnd]
    rw [e]; exact .quiet rfl (by simp [hsnd]) (Keep.refl d)

end Sim7x00
end Verif
